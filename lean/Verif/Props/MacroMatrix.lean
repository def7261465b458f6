import Verif.Model.MacroMatrix
import Verif.Props.MicroGeometry
import Verif.Props.Bases
import Verif.Props.DetSpline
import Mathlib.Algebra.CharZero.Infinite

/-!
C114: the macro sensitivity fields of a microstructure are the basis functions of the deformation function.
-/
set_option linter.unusedSectionVars false
namespace Splinepy.MacroMatrix
open Splinepy.Spec Splinepy.KnotInsertion Finset Splinepy.AddKnots
open Splinepy.Index (Spline)
open Splinepy.BezierSpline (On Spec.inSpan Spec.Local)

variable {K : Type} [Field K] [LinearOrder K] [IsStrictOrderedRing K]

theorem applyAll_eq (gs : List (Global K)) (c : List K) : applyAll gs c = applyChain gs c := rfl

/-- Insertion matrices of some directions: `done` are the directions that are refined already, `todo` are those to come, `rest` stays as it is. -/
theorem insertion_chain {tol : K} (ht : 0 < tol) (rest : List (Dim K)) (todo : List (Dim K × List K × Dim K)) :
    ∀ done : List (Dim K), (∀ j ∈ todo, j.1.Valid tol ∧ Adds tol j.1 j.2.1 j.2.2) →
    ∃ gs, insertionChain ((done ++ todo.map (·.1) ++ rest).map (·.degree)) tol done.length (todo.map (·.2.1)) ((done ++ todo.map (·.1) ++ rest).map (·.knots)) =
        some (gs, (done ++ todo.map (·.2.2) ++ rest).map (·.knots)) ∧
      ∀ xs : List K, xs.length = (done ++ todo.map (·.1) ++ rest).length →
        (∀ i (h : i < todo.length), todo[i].1.first ≤ xs.getD (done.length + i) 0 ∧ xs.getD (done.length + i) 0 < todo[i].1.last) → ∀ coef : List K,
        tensorEval (List.zipWith (fun d x => d.basisAt x) (done ++ todo.map (·.1) ++ rest) xs) ((done ++ todo.map (·.1) ++ rest).map (·.nCps)) coef =
          tensorEval (List.zipWith (fun d x => d.basisAt x) (done ++ todo.map (·.2.2) ++ rest) xs) ((done ++ todo.map (·.2.2) ++ rest).map (·.nCps)) (applyAll gs coef) := by
  induction todo with
  | nil =>
    intro done _
    exact ⟨[], rfl, fun xs _ _ coef => rfl⟩
  | cons j todo ih =>
    intro done hj
    obtain ⟨d, new, e⟩ := j
    obtain ⟨hv, ha⟩ := hj (d, new, e) (by simp)
    have hde : d.degree = e.degree := ha.degree.symm
    obtain ⟨gs, h1, h2⟩ := ih (done ++ [e]) fun j hj' => hj j (by simp [hj'])
    have hins := MicroGeometry.adds_insertion ht hv ha
    have hg := global_insertion_preserves_tensor (kvs := (done ++ d :: todo.map (·.1) ++ rest).map (·.knots))
      (degrees := (done ++ d :: todo.map (·.1) ++ rest).map (·.degree)) (dim := done.length) (by simp) (by simp) (by simp) hins
    simp only at hg
    obtain ⟨G, hG, hGk, hGs, -, -, hGt⟩ := hg
    have hset : ∀ {α : Type} (f : Dim K → α), ((done ++ d :: todo.map (·.1) ++ rest).map f).set done.length (f e) = (done ++ [e] ++ todo.map (·.1) ++ rest).map f := by
      intro α f
      rw [List.append_assoc, List.map_append, List.set_append_right _ _ (by simp)]
      simp
    have hdeg : (done ++ [e] ++ todo.map (·.1) ++ rest).map (·.degree) = (done ++ d :: todo.map (·.1) ++ rest).map (·.degree) := by
      simp [hde]
    refine ⟨G :: gs, ?_, fun xs hl hx coef => ?_⟩
    · simp only [List.map_cons, insertionChain]
      rw [hG]
      simp only [Option.bind_some, hGk]
      rw [hset (·.knots)]
      rw [hdeg] at h1
      simp only [List.length_append, List.length_singleton] at h1
      rw [h1]
      simp
    · have hx0 := hx 0 (by simp)
      simp only [List.getElem_cons_zero, Nat.add_zero] at hx0
      have hdl : done.length < xs.length := by rw [hl]; simp
      have h3 := hGt (List.zipWith (fun d x => d.basisAt x) (done ++ d :: todo.map (·.1) ++ rest) xs) coef (xs.getD done.length 0)
        (by rw [List.length_zipWith, hl]; simp) (by rw [d.start_knot _ le_rfl]; exact hx0.1) (by rw [d.end_knot]; exact hx0.2)
      have hncps : nCpsOld ((done ++ d :: todo.map (·.1) ++ rest).map (·.knots)) ((done ++ d :: todo.map (·.1) ++ rest).map (·.degree)) =
          (done ++ d :: todo.map (·.1) ++ rest).map (·.nCps) := by
        unfold nCpsOld
        rw [List.zipWith_map_left, List.zipWith_map_right, List.zipWith_self]
        rfl
      have hz : ∀ c : Dim K, (List.zipWith (fun d x => d.basisAt x) (done ++ d :: todo.map (·.1) ++ rest) xs).set done.length (c.basisAt (xs.getD done.length 0)) =
          List.zipWith (fun d x => d.basisAt x) (done ++ [c] ++ todo.map (·.1) ++ rest) xs := by
        intro c
        apply List.ext_getElem
        · simp
        · intro i i1 i2
          rw [List.getElem_set]
          split
          · next h =>
            subst h
            rw [List.getElem_zipWith, List.getD_eq_getElem _ 0 hdl]
            congr 1
            simp
          · next h =>
            rw [List.getElem_zipWith, List.getElem_zipWith]
            congr 1
            simp only [List.append_assoc, List.getElem_append, List.cons_append, List.nil_append]
            split
            · rfl
            · have : i - done.length ≠ 0 := by omega
              obtain ⟨m, hm⟩ := Nat.exists_eq_succ_of_ne_zero this
              simp only [hm, Nat.succ_eq_add_one, List.getElem_cons_succ]
      rw [hncps] at h3 hGs
      have hne : e.nCps = e.knots.length - d.degree - 1 := by unfold Dim.nCps; rw [ha.degree]
      rw [← hne] at h3 hGs
      rw [hset (·.nCps)] at h3 hGs
      have hb1 : (fun j => basis (knotSeq d.knots) d.degree j (xs.getD done.length 0)) = d.basisAt (xs.getD done.length 0) := rfl
      have hb2 : (fun j => basis (knotSeq e.knots) d.degree j (xs.getD done.length 0)) = e.basisAt (xs.getD done.length 0) := by
        unfold Dim.basisAt
        rw [ha.degree]
      rw [hb1, hb2, hz, hz] at h3
      have h4 := h2 xs (by rw [hl]; simp) (fun i hi => by
        have := hx (i + 1) (by simp; omega)
        simp only [List.getElem_cons_succ] at this
        rw [List.length_append, List.length_singleton, show done.length + 1 + i = done.length + (i + 1) by omega]
        exact this) (apply G coef)
      have h5 : applyAll (G :: gs) coef = applyAll gs (apply G coef) := rfl
      rw [h5]
      have e1 : done ++ List.map (fun x => x.1) ((d, new, e) :: todo) ++ rest = done ++ [d] ++ todo.map (·.1) ++ rest := by simp
      have e2 : done ++ List.map (fun x => x.2.2) ((d, new, e) :: todo) ++ rest = done ++ [e] ++ todo.map (·.2.2) ++ rest := by simp
      have e3 : done ++ d :: todo.map (·.1) ++ rest = done ++ [d] ++ todo.map (·.1) ++ rest := by simp
      rw [e1, e2, ← h4]
      rw [e3] at h3
      refine h3.trans ?_
      congr 1
      unfold apply
      rw [hGs]
      rfl

/-! ### coefficients of Bernstein polynomials -/

theorem bernstein_eval (d j : ℕ) (x : K) : bernstein d j 0 1 x = (bernsteinPolynomial K d j).eval x := by
  simp [bernstein, bernsteinPolynomial]

/-- Polynomials are determined by their values at more places than the degree. -/
theorem bernstein_determined (d : ℕ) (nodes : List K) (hn : nodes.Nodup) (hl : d + 1 ≤ nodes.length) :
    DetSpline.Determined (fun (x : K) j => bernstein d j 0 1 x) (d + 1) nodes := by
  classical
  intro c hc
  have hp : ∑ j ∈ range (d + 1), Polynomial.C (c j) * bernsteinPolynomial K d j = 0 := by
    refine Polynomial.eq_zero_of_natDegree_lt_card_of_eval_eq_zero' _ nodes.toFinset (fun x hx => ?_) ?_
    · have := hc x (by simpa using hx)
      rw [Polynomial.eval_finset_sum, ← this]
      refine sum_congr rfl fun j _ => ?_
      rw [Polynomial.eval_mul, Polynomial.eval_C, ← bernstein_eval, mul_comm]
    · rw [List.toFinset_card_of_nodup hn]
      refine lt_of_lt_of_le (Nat.lt_succ_of_le (Polynomial.natDegree_sum_le_of_forall_le (n := d) _ _ fun j hj => ?_)) hl
      have hj' : j ≤ d := Nat.lt_succ_iff.1 (mem_range.1 hj)
      unfold bernsteinPolynomial
      refine le_trans (Polynomial.natDegree_C_mul_le _ _) (le_trans Polynomial.natDegree_mul_le ?_)
      have h1 : (((d.choose j : ℕ) : Polynomial K) * Polynomial.X ^ j).natDegree ≤ j := by
        refine le_trans Polynomial.natDegree_mul_le ?_
        simp
      have h2 : ((1 - Polynomial.X : Polynomial K) ^ (d - j)).natDegree ≤ d - j := by
        refine le_trans Polynomial.natDegree_pow_le ?_
        have : (1 - Polynomial.X : Polynomial K).natDegree ≤ 1 := le_trans (Polynomial.natDegree_sub_le _ _) (by simp)
        nlinarith
      omega
  have hq : ∑ j ∈ range (d + 1), Polynomial.C (c j * (d.choose j : K)) * Polynomial.X ^ j = 0 := by
    refine Polynomial.eq_zero_of_infinite_isRoot _ (Set.Infinite.mono (s := Set.Ici 0) (fun t ht => ?_) (Set.Ici_infinite 0))
    have ht : (0 : K) ≤ t := ht
    have h1 : 1 + t ≠ 0 := by positivity
    have h0 := congrArg (Polynomial.eval (t / (1 + t))) hp
    rw [Polynomial.eval_finset_sum, Polynomial.eval_zero] at h0
    change Polynomial.eval t _ = 0
    rw [Polynomial.eval_finset_sum]
    have h2 : ∑ j ∈ range (d + 1), Polynomial.eval t (Polynomial.C (c j * (d.choose j : K)) * Polynomial.X ^ j) =
        (1 + t) ^ d * ∑ j ∈ range (d + 1), Polynomial.eval (t / (1 + t)) (Polynomial.C (c j) * bernsteinPolynomial K d j) := by
      rw [Finset.mul_sum]
      refine Finset.sum_congr rfl fun j hj => ?_
      have hj' : j ≤ d := Nat.lt_succ_iff.1 (mem_range.1 hj)
      rw [Polynomial.eval_mul, Polynomial.eval_mul, ← bernstein_eval, Polynomial.eval_C, Polynomial.eval_C, Polynomial.eval_pow, Polynomial.eval_X]
      unfold bernstein
      have e1 : (1 - t / (1 + t)) / (1 - 0) = 1 / (1 + t) := by field_simp; ring
      have e2 : (t / (1 + t) - 0) / (1 - 0) = t / (1 + t) := by ring
      rw [e1, e2, div_pow, div_pow, one_pow]
      obtain ⟨e, rfl⟩ := Nat.exists_eq_add_of_le hj'
      rw [Nat.add_sub_cancel_left, pow_add]
      field_simp
    rw [h2, h0, mul_zero]
  intro j hj
  have := congrArg (fun q => Polynomial.coeff q j) hq
  simp only [Polynomial.finsetSum_coeff, Polynomial.coeff_C_mul, Polynomial.coeff_X_pow, Polynomial.coeff_zero] at this
  rw [Finset.sum_eq_single j (fun k _ hk => by rw [if_neg (fun e => hk e.symm), mul_zero]) (fun h => absurd (mem_range.2 hj) h), if_pos rfl, mul_one] at this
  have hne : (d.choose j : K) ≠ 0 := by exact_mod_cast (Nat.choose_pos (Nat.lt_succ_iff.1 hj)).ne'
  exact (mul_eq_zero.1 this).resolve_right hne

/-- value of the tensor product of Bernstein polynomials with the coefficients `c` -/
theorem bezier_value (degs : List ℕ) (c : ℕ → K) (v : List K) :
    value (⟨degs, none, none, []⟩ : Spline K (List K)) c v =
      ∑ l ∈ range (degs.map (· + 1)).prod, basisProduct (List.zipWith (fun d x j => bernstein d j 0 1 x) degs v) (digits (degs.map (· + 1)) l) * c l := by
  have hn : netSize (⟨degs, none, none, []⟩ : Spline K (List K)) = degs.map (· + 1) := by
    unfold netSize directions
    simp [Function.comp_def, Direction.size]
  have hb : basisValues (⟨degs, none, none, []⟩ : Spline K (List K)) v = List.zipWith (fun d x j => bernstein d j 0 1 x) degs v := by
    unfold basisValues directions
    simp only [List.zipWith_map_left]
    rfl
  unfold value
  simp only [hn, hb]
  rw [tensorEval_eq_sum]
  refine sum_congr rfl fun l hl => ?_
  rw [mem_range] at hl
  rw [List.getD_eq_getElem _ 0 (by simpa using hl)]
  simp

/-- Coefficients are determined by the values in the half-open cube. -/
theorem coefficients_unique (degs : List ℕ) (f g : ℕ → K)
    (h : ∀ v : List K, v.length = degs.length → (∀ x ∈ v, 0 ≤ x ∧ x < 1) →
      value (⟨degs, none, none, []⟩ : Spline K (List K)) f v = value (⟨degs, none, none, []⟩ : Spline K (List K)) g v) :
    ∀ l < (degs.map (· + 1)).prod, f l = g l := by
  have hnode : ∀ d : ℕ, ∀ x ∈ (List.range (d + 1)).map fun j : ℕ => (j : K) / ((d : K) + 1), 0 ≤ x ∧ x < 1 := by
    intro d x hx
    obtain ⟨j, hj, rfl⟩ := List.mem_map.1 hx
    rw [List.mem_range] at hj
    have h1 : (0 : K) < (d : K) + 1 := by positivity
    refine ⟨by positivity, ?_⟩
    rw [div_lt_one h1]
    exact_mod_cast hj
  have key := DetSpline.tensor_determined (degs.map fun d => (fun (x : K) j => bernstein d j 0 1 x)) (degs.map (· + 1))
    (degs.map fun d => (List.range (d + 1)).map fun j : ℕ => (j : K) / ((d : K) + 1)) (by simp) (by simp) (by
      intro i h1 h2 h3
      simp only [List.getElem_map]
      refine bernstein_determined _ _ ?_ (by simp)
      refine List.Nodup.map ?_ List.nodup_range
      intro a b hab
      have h0 : ((degs[i]'(by simpa using h1) : ℕ) : K) + 1 ≠ 0 := by positivity
      simp only at hab
      rw [div_left_inj' h0] at hab
      exact_mod_cast hab) (fun l => f l - g l) (by
      intro q hq
      have hmem := (mem_firstFastest _ _).1 hq
      have hql : q.length = degs.length := by have := hmem.length_eq; simpa using this.symm
      have hq01 : ∀ x ∈ q, 0 ≤ x ∧ x < 1 := by
        intro x hx
        obtain ⟨i, hi, rfl⟩ := List.getElem_of_mem hx
        have := (List.forall₂_iff_get.1 hmem).2 i (by simp; omega) hi
        simp only [List.get_eq_getElem, List.getElem_map] at this
        exact hnode _ _ this
      have hv := h q hql hq01
      rw [bezier_value, bezier_value] at hv
      rw [List.zipWith_map_left]
      simp only [mul_sub, sum_sub_distrib]
      exact sub_eq_zero.2 hv)
  intro l hl
  exact sub_eq_zero.1 (key l hl)

/-! ### specification -/

/-- Value at `v` of the Bernstein polynomial number `l` of the degrees `degs`: the Bezier spline whose control point `l` is one and the others are zero. -/
def Spec.bernsteinAt (degs : List ℕ) (l : ℕ) (v : List K) : K := value (⟨degs, none, none, []⟩ : Spline K (List K)) (fun i => if i = l then 1 else 0) v

/-- What `compose(tile_patch, compute_sensitivities=True)` promises for a Bezier patch of the degrees `degs`: for each of its control points a Bezier spline of the degrees `degs'`, which is the
Bernstein polynomial of this control point at the point of the tile patch. -/
structure Spec.BasisComposes (degs : List ℕ) (t : Spline K (List K)) (degs' : List ℕ) (info : MicroCreate.BasisComposition K) : Prop where
  columns : info.m = (degs.map (· + 1)).prod
  rows : info.n = (degs'.map (· + 1)).prod
  value : ∀ l < info.m, ∀ u, MicroGeometry.Spec.Cube t.degrees.length u →
    Splinepy.Spec.value (⟨degs', none, none, []⟩ : Spline K (List K)) (info.basis l) u = Spec.bernsteinAt degs l (MicroGeometry.Spec.image degs.length t u)

/-- `c` is, on the tile patch `t` in the element number `e` of the grid, the derivative of the points of the spline with respect to component `jj` of its control point `ii`: the basis function of
this control point in component `jj`, zero in the others. -/
def Spec.IsSensitivity (s : Spline K (List K)) (n dim : ℕ) (breaks : List (List K)) (e ii jj : ℕ) (t c : Spline K (List K)) : Prop :=
  ∀ u, MicroGeometry.Spec.Cube t.degrees.length u → ∀ k < dim,
    point c u k = if k = jj then Bases.Spec.basisFunction s (MicroGeometry.Spec.place breaks (digits (MicroGeometry.Spec.elements breaks) e) (MicroGeometry.Spec.image n t u)) ii else 0

/-- What the libraries promise for the tile patches of the microstructure: compositions of the Bernstein polynomials with the patches of the tiles. -/
def Spec.Composed (s : Spline K (List K)) (x : MicroCreate.Input K ℕ (Spline K (List K)) (Spline K (List K))) (t : MicroCreate.Spec.Tile K (Spline K (List K)))
    (b : ℕ → Spline K (List K) → MicroCreate.BasisComposition K) : Prop :=
  ∀ p ∈ x.patches.zip x.closure, ∀ q ∈ t.patches (x.parameters p.1) p.2, MicroGeometry.Spec.TilePatch s.degrees.length q ∧
    ∃ degs', (∀ cps, x.bezier (b p.1 q) cps = ⟨degs', none, none, cps⟩) ∧ Spec.BasisComposes s.degrees q degs' (b p.1 q)

/-- The fields with macro sensitivities on the grid with the given breakpoints. There is a matrix for each patch of the deformation
function. `x` holds what `create` uses: the patches are numbered, each with its matrix. The field
number `ii * dim + jj` after those of the design variables holds, at the position of each patch of each tile, the derivative with respect to component `jj` of control point `ii`. -/
def Spec.HasSensitivities (s : Spline K (List K)) (breaks : List (List K)) (matrices : Option (List (ℕ → ℕ → K))) : Prop :=
  (∃ l, matrices = some l ∧ l.length = (MicroGeometry.Spec.elements breaks).prod) ∧
  ∀ (x : MicroCreate.Input K ℕ (Spline K (List K)) (Spline K (List K))) (t : MicroCreate.Spec.Tile K (Spline K (List K))) (b : ℕ → Spline K (List K) → MicroCreate.BasisComposition K),
    x.patches = List.range (MicroGeometry.Spec.elements breaks).prod → x.closure.length = x.patches.length → matrices = some (x.patches.map x.matrix) →
    MicroCreate.Spec.Creates x.createTile t → (∀ f, x.sensitivities = some f → ∀ d ∈ x.patches, (f d).length = x.nSensitivities) →
    x.basisComposition = some b → x.cpsSize = s.controlPoints.length * x.dim → Spec.Composed s x t b →
    ∃ ms fields, MicroCreate.create x = some (ms, fields) ∧ ms = (x.patches.zip x.closure).flatMap (fun p => (t.patches (x.parameters p.1) p.2).map (x.compose p.1)) ∧
      ∀ ii < s.controlPoints.length, ∀ jj < x.dim, ∃ field : ℕ → Spline K (List K) → Spline K (List K),
      fields[(if x.sensitivities.isSome then x.nSensitivities else 0) + (ii * x.dim + jj)]? =
        some ((x.patches.zip x.closure).flatMap fun p => (t.patches (x.parameters p.1) p.2).map fun q => some (field p.1 q)) ∧
      ∀ p ∈ x.patches.zip x.closure, ∀ q ∈ t.patches (x.parameters p.1) p.2, Spec.IsSensitivity s s.degrees.length x.dim breaks p.1 ii jj q (field p.1 q)

/-! ### the matrices -/

/-- the spline whose only coordinate is the basis function of control point `a` -/
def unitSpline (s : Spline K (List K)) (a : ℕ) : Spline K (List K) :=
  { s with controlPoints := (List.range s.controlPoints.length).map fun j => [if j = a then 1 else 0] }

theorem unitSpline_get (s : Spline K (List K)) (a i : ℕ) (hi : i < s.controlPoints.length) : ((unitSpline s a).controlPoints.getD i []).getD 0 0 = if i = a then 1 else 0 := by
  unfold unitSpline
  rw [List.getD_eq_getElem _ [] (by simpa using hi)]
  simp

theorem unitSpline_point {s : Spline K (List K)} (hs : ValidSpline s) {a : ℕ} (ha : a < s.controlPoints.length) :
    ValidSpline (unitSpline s a) ∧ (∀ P ∈ (unitSpline s a).controlPoints, P.length = 1) ∧ ∀ u, InDomain s u → point (unitSpline s a) u 0 = Bases.Spec.basisFunction s u a := by
  have hl : (unitSpline s a).controlPoints.length = s.controlPoints.length := by simp [unitSpline]
  have hv : ValidSpline (unitSpline s a) := by
    refine ⟨hs.knots, hs.dirs, by rw [hl]; exact hs.net, fun ws h => by rw [hl]; exact hs.weights ws h⟩
  refine ⟨hv, ?_, fun u hu => ?_⟩
  · intro P hP
    obtain ⟨j, -, rfl⟩ := List.mem_map.1 hP
    rfl
  · rw [← Bases.basisFunction_congr (r := unitSpline s a) (s := s) rfl rfl rfl hl u a, ← Bases.value_indicator hv (u := u) hu (by rw [hl]; exact ha)]
    unfold point value
    have e : ∀ f : K → ℕ → K, (List.range (netSize (unitSpline s a)).prod).map (fun i => f (((unitSpline s a).controlPoints.getD i []).getD 0 0) i) =
        (List.range (netSize (unitSpline s a)).prod).map (fun i => f (if i = a then 1 else 0) i) := by
      intro f
      refine List.map_congr_left fun i hi => ?_
      rw [List.mem_range, ← hv.net, hl] at hi
      rw [unitSpline_get s a i hi]
    cases (unitSpline s a).weights with
    | none => simp only; rw [e fun x _ => x]
    | some ws => simp only; rw [e fun x i => ws.getD i 0 * x]

theorem unitSpline_knots (s : Spline K (List K)) (a : ℕ) : (Create.withKnotVectors (unitSpline s a)).degrees = (Create.withKnotVectors s).degrees ∧
    (Create.withKnotVectors (unitSpline s a)).knotVectors = (Create.withKnotVectors s).knotVectors ∧ (Create.withKnotVectors (unitSpline s a)).weights = s.weights := by
  obtain ⟨ds, kvs, ws, P⟩ := s
  cases kvs <;> exact ⟨rfl, rfl, rfl⟩

/-- The matrix of the patch number `e`: column `a` holds the coefficients of the basis function number `a` on element `e`. -/
theorem matrices_coefficients {tol : K} (ht : 0 < tol) (mults : List K → List ℕ) (hm : BezierSpline.Spec.Multiplicities tol mults) (jobs : List (Dim K × List K × Dim K))
    (rest : List (Dim K)) (hj : ∀ j ∈ jobs, j.1.Valid tol ∧ Adds tol j.1 j.2.1 j.2.2) (hr : ∀ d ∈ rest, d.Valid tol)
    (hc : ∀ d ∈ jobs.map (·.1) ++ rest, ∀ g ∈ d.inner, g.2 ≤ d.degree) (s : Spline K (List K)) (hs : ValidSpline s) (hw : s.weights = none)
    (hon : On (Create.withKnotVectors s) (jobs.map (·.1) ++ rest)) :
    ∃ Ms, bezierMatrices ((jobs.map (·.1) ++ rest).map (·.degree)) tol mults ((jobs.map (·.1) ++ rest).map (·.knots)) (jobs.map (·.2.1)) s.controlPoints.length = some Ms ∧
      Ms.length = ((jobs.map (·.2.2) ++ rest).map fun d => d.inner.length + 1).prod ∧
      ∀ e M, Ms[e]? = some M → ∀ a < s.controlPoints.length, ∀ v, MicroGeometry.Spec.Cube (jobs.map (·.1) ++ rest).length v →
        value (⟨s.degrees, none, none, []⟩ : Spline K (List K)) (fun l => M l a) v =
          Bases.Spec.basisFunction s (Spec.inSpan (jobs.map (·.2.2) ++ rest) (digits ((jobs.map (·.2.2) ++ rest).map fun d => d.inner.length + 1) e) v) a := by
  set ds := jobs.map (·.1) ++ rest with hds
  set es := jobs.map (·.2.2) ++ rest with hes
  have hlen : es.length = ds.length := by simp [hes, hds]
  have hdv : ∀ d ∈ ds, d.Valid tol := by
    intro d hd
    rcases List.mem_append.1 hd with h | h
    · obtain ⟨j, hj', rfl⟩ := List.mem_map.1 h
      exact (hj j hj').1
    · exact hr d h
  have hev : ∀ d ∈ es, d.Valid tol := by
    intro d hd
    rcases List.mem_append.1 hd with h | h
    · obtain ⟨j, hj', rfl⟩ := List.mem_map.1 h
      exact (hj j hj').2.valid
    · exact hr d h
  have hec : ∀ d ∈ es, ∀ g ∈ d.inner, g.2 ≤ d.degree := by
    intro d hd
    rcases List.mem_append.1 hd with h | h
    · obtain ⟨j, hj', rfl⟩ := List.mem_map.1 h
      exact MicroGeometry.adds_inner ht (hj j hj').1 (hj j hj').2 (hc j.1 (List.mem_append_left _ (List.mem_map.2 ⟨j, hj', rfl⟩)))
    · exact hc d (List.mem_append_right _ h)
  have hdeg : es.map (·.degree) = ds.map (·.degree) := by
    rw [hes, hds, List.map_append, List.map_append, List.map_map, List.map_map]
    congr 1
    exact List.map_congr_left fun j hj' => (hj j hj').2.degree
  have hbounds : es.map (fun d => (d.first, d.last)) = ds.map fun d => (d.first, d.last) := by
    rw [hes, hds, List.map_append, List.map_append, List.map_map, List.map_map]
    congr 1
    exact List.map_congr_left fun j hj' => by simp [(hj j hj').2.first, (hj j hj').2.last]
  have hsd : s.degrees = ds.map (·.degree) := by
    rw [← hon.degrees]
    unfold Create.withKnotVectors; split <;> rfl
  -- the chains of matrices
  obtain ⟨gs, g1, g2⟩ := insertion_chain ht rest jobs [] hj
  simp only [List.nil_append, List.length_nil, Nat.zero_add] at g1 g2
  rw [← hds, ← hes] at g1 g2
  obtain ⟨hs', kvs', x1, x2, -, x3⟩ := bezier_extraction_exact ht es hev
  subst x2
  rw [hdeg] at x1
  have hgl : ∀ d : Dim K, d.groups.length - 1 = d.inner.length + 1 := fun d => by simp [Dim.groups]
  simp only [hgl] at x3
  have hmults : (es.map fun d => d.full.knots).map mults = es.map fun d => d.full.mults := by
    rw [List.map_map]
    refine List.map_congr_left fun d hd => ?_
    refine hm d.full.groups (Dim.full_valid (hev d hd)).gap ?_
    intro g hg
    simp only [Dim.groups, List.cons_append, List.mem_cons, List.mem_append] at hg
    rcases hg with rfl | hg | hg
    · simp
    · exact (Dim.full_valid (hev d hd)).mult g hg
    · rcases hg with rfl | hg
      · simp
      · simp at hg
  have hcl : List.Forall₂ BezierPatches.Spec.Clamped (es.map (fun d => d.full.mults)) (es.map (·.degree)) := by
    rw [List.forall₂_map_left_iff, List.forall₂_map_right_iff, List.forall₂_same]
    exact fun d _ => d.full.clamped
  obtain ⟨hn, hids⟩ := BezierPatches.bezier_patch_ids _ _ hcl
  have hspans : (es.map (fun d => d.full.mults)).map (fun m => m.length - 1) = es.map (fun d => d.inner.length + 1) := by
    simp [Dim.mults, Dim.full, Dim.groups, Function.comp_def]
  rw [hspans] at hn
  refine ⟨(BezierPatches.extractBezierPatchIDs (es.map fun d => d.full.mults) (es.map (·.degree))).map fun ids l a =>
      (applyAll hs' (applyAll gs ((List.range s.controlPoints.length).map fun j => if j = a then 1 else 0))).getD (ids.getD l 0) 0, ?_, by rw [List.length_map, hn], ?_⟩
  · unfold bezierMatrices
    rw [g1, Option.bind_some]
    simp only [List.length_map]
    rw [← hlen, x1, Option.map_some]
    simp only
    rw [hmults, hdeg]
  intro e M hM a ha v hv
  rw [List.getElem?_map] at hM
  obtain ⟨ids, hi1, rfl⟩ := Option.map_eq_some_iff.1 hM
  obtain ⟨hlt, hi2⟩ := List.getElem?_eq_some_iff.1 hi1
  have hidl : ids.length = (s.degrees.map (· + 1)).prod := by
    rw [← hi2, (hids e hlt).1, hsd, hdeg]
  rw [hn] at hlt
  have hpos : ∀ r ∈ es.map (fun d => d.inner.length + 1), 0 < r := by simp
  set cs := digits (es.map fun d => d.inner.length + 1) e with hcs
  have hcsl : cs.length = es.length := by rw [hcs, digits_length, List.length_map]
  have hgrid := inGrid_iff.1 (digits_inGrid (es.map fun d => d.inner.length + 1) e hpos)
  -- the basis function as a spline
  obtain ⟨u1, u2, u3⟩ := unitSpline_point hs ha
  obtain ⟨w1, w2, w3⟩ := Create.withKnotVectors_evaluates u1
  have hwon : On (Create.withKnotVectors (unitSpline s a)) ds := by
    exact ⟨(unitSpline_knots s a).1.trans hon.degrees, (unitSpline_knots s a).2.1.trans hon.knots⟩
  have hwcp : (Create.withKnotVectors (unitSpline s a)).controlPoints = (unitSpline s a).controlPoints := by
    unfold Create.withKnotVectors; split <;> rfl
  have hww : (Create.withKnotVectors (unitSpline s a)).weights = none := by
    exact (unitSpline_knots s a).2.2.trans hw
  have hdom : ∀ u, List.Forall₂ (fun (d : Dim K) x => d.first ≤ x ∧ x ≤ d.last) ds u → InDomain s u := fun u h => MicroGeometry.inDomain_bounds hon u h
  -- exact patches
  have hL := MicroGeometry.contract_exists ht (fun a b => none (α := Spline K (List K)))
  obtain ⟨q, q1, q2, q3, q4, q5, q6, q7⟩ := MicroGeometry.insertFrom_spec ht hL 1 jobs [] rest (fun j h => (hj j h).2) _ w1 ⟨w1, ⟨_, hdv, hwon⟩, 1, by rw [hwcp]; exact u2⟩
    (by rw [hwcp]; exact u2) (by simpa using hwon)
  simp only [List.nil_append] at q4
  rw [← hes] at q4
  obtain ⟨bs, b1, b2, b3, -⟩ := BezierSpline.beziers_points ht BezierSpline.missing hL.needed BezierSpline.runs hL.mults _ (BezierSpline.someInsert tol) hL.insertKnot es hev q q2 q3 q4 1 q6
  obtain ⟨c1, c2, c3, c4, c5, c6⟩ := b3 e (by rw [b2]; exact hlt)
  rw [← hcs] at c6
  have hplace : ∀ v, MicroGeometry.Spec.Cube ds.length v → value (⟨s.degrees, none, none, []⟩ : Spline K (List K)) (fun l => (bs[e].controlPoints.getD l []).getD 0 0) v =
      Bases.Spec.basisFunction s (Spec.inSpan es cs v) a ∧ InDomain s (Spec.inSpan es cs v) := by
    intro v hv
    obtain ⟨d1, d2⟩ := c6 v (MicroGeometry.local_of_cube es hec _ (digits_inGrid _ _ hpos) v (by rw [hlen]; exact hv))
    have hin : InDomain s (Spec.inSpan es cs v) := by
      refine hdom _ ?_
      unfold InDomain at d1
      rw [q4.directions, List.forall₂_map_left_iff] at d1
      have h1 : List.Forall₂ (fun (b : K × K) y => b.1 ≤ y ∧ y ≤ b.2) (es.map fun d => (d.first, d.last)) (Spec.inSpan es cs v) := by
        rw [List.forall₂_map_left_iff]
        refine d1.imp fun d y h => ?_
        unfold Direction.Contains at h
        rw [BezierSpline.lower_dim, BezierSpline.upper_dim] at h
        exact h
      rw [hbounds, List.forall₂_map_left_iff] at h1
      exact h1
    refine ⟨?_, hin⟩
    have h2 := d2 0
    rw [(q7 _ (w3 _ hin).1).2 0, (w3 _ hin).2 0, u3 _ hin] at h2
    rw [← h2]
    have hbw : bs[e].weights = none := by
      have : bs[e].weights.isSome = false := by rw [c4, q5, hww]; rfl
      simpa using this
    have hbd : bs[e].degrees = s.degrees := by rw [c2, q4.degrees, hdeg, hsd]
    unfold point value
    rw [hbw]
    unfold netSize basisValues directions
    rw [c3, hbd]
  rw [← (hplace v hv).1]
  have key := coefficients_unique s.degrees (fun l => (applyAll hs' (applyAll gs ((List.range s.controlPoints.length).map fun j => if j = a then 1 else 0))).getD (ids.getD l 0) 0)
    (fun l => (bs[e].controlPoints.getD l []).getD 0 0) ?_
  · rw [bezier_value, bezier_value]
    exact sum_congr rfl fun l hl => congrArg₂ (· * ·) rfl (key l (mem_range.1 hl))
  -- values in the half-open cube
  intro v hvl hv01
  have hvl' : v.length = ds.length := by rw [hvl, hsd, List.length_map]
  obtain ⟨p1, p2⟩ := hplace v ⟨hvl', fun x hx => ⟨(hv01 x hx).1, (hv01 x hx).2.le⟩⟩
  rw [p1, ← u3 _ p2, ← (w3 _ p2).2 0]
  set xs := Spec.inSpan es cs v with hxs
  have hxl : xs.length = es.length := by
    rw [hxs]; unfold BezierSpline.Spec.inSpan
    simp [hcsl, hvl', hlen]
  have hspan : ∀ i (hi : i < es.length), es[i].uniqueKnots.getD (cs.getD i 0) 0 < es[i].uniqueKnots.getD (cs.getD i 0 + 1) 0 ∧
      xs.getD i 0 = es[i].uniqueKnots.getD (cs.getD i 0) 0 + (es[i].uniqueKnots.getD (cs.getD i 0 + 1) 0 - es[i].uniqueKnots.getD (cs.getD i 0) 0) * v.getD i 0 ∧
      es[i].uniqueKnots.getD (cs.getD i 0) 0 ≤ xs.getD i 0 ∧ xs.getD i 0 < es[i].uniqueKnots.getD (cs.getD i 0 + 1) 0 ∧
      es[i].first ≤ xs.getD i 0 ∧ xs.getD i 0 < es[i].last := by
    intro i hi
    have hci : i < cs.length := by omega
    have hvi : i < v.length := by omega
    have hg := hgrid.2 i (by simpa using hi)
    simp only [List.getElem_map] at hg
    have hcd : cs.getD i 0 < es[i].inner.length + 1 := by rw [List.getD_eq_getElem _ 0 hci]; exact hg
    have hul : es[i].uniqueKnots.length = es[i].inner.length + 2 := by rw [unique_eq]; simp
    have hst := unique_strict ht (hev es[i] (List.getElem_mem hi))
    have h1 : es[i].uniqueKnots.getD (cs.getD i 0) 0 < es[i].uniqueKnots.getD (cs.getD i 0 + 1) 0 := by
      rw [List.getD_eq_getElem es[i].uniqueKnots 0 (by omega : cs.getD i 0 < _), List.getD_eq_getElem es[i].uniqueKnots 0 (by omega : cs.getD i 0 + 1 < _)]
      exact List.pairwise_iff_getElem.1 hst _ _ _ _ (by omega)
    have h2 : xs.getD i 0 = es[i].uniqueKnots.getD (cs.getD i 0) 0 + (es[i].uniqueKnots.getD (cs.getD i 0 + 1) 0 - es[i].uniqueKnots.getD (cs.getD i 0) 0) * v.getD i 0 := by
      rw [List.getD_eq_getElem xs 0 (by omega), List.getD_eq_getElem cs 0 hci, List.getD_eq_getElem v 0 hvi]
      simp only [hxs, BezierSpline.Spec.inSpan, List.getElem_zipWith, List.getElem_zip]
    obtain ⟨v0, v1⟩ := hv01 _ (List.getElem_mem hvi)
    rw [← List.getD_eq_getElem v 0 hvi] at v0 v1
    have h3 : es[i].uniqueKnots.getD (cs.getD i 0) 0 ≤ xs.getD i 0 := by rw [h2]; nlinarith
    have h4 : xs.getD i 0 < es[i].uniqueKnots.getD (cs.getD i 0 + 1) 0 := by rw [h2]; nlinarith
    have m1 : es[i].uniqueKnots.getD (cs.getD i 0) 0 ∈ es[i].uniqueKnots := by
      rw [List.getD_eq_getElem es[i].uniqueKnots 0 (by omega : cs.getD i 0 < _)]; exact List.getElem_mem _
    have m2 : es[i].uniqueKnots.getD (cs.getD i 0 + 1) 0 ∈ es[i].uniqueKnots := by
      rw [List.getD_eq_getElem es[i].uniqueKnots 0 (by omega : cs.getD i 0 + 1 < _)]; exact List.getElem_mem _
    exact ⟨h1, h2, h3, h4, (unique_bounds ht (hev es[i] (List.getElem_mem hi)) m1).1.trans h3, lt_of_lt_of_le h4 (unique_bounds ht (hev es[i] (List.getElem_mem hi)) m2).2⟩
  have hdl : ∀ i (hi : i < ds.length), ds[i].first = (es[i]'(by omega)).first ∧ ds[i].last = (es[i]'(by omega)).last := by
    intro i hi
    have h := congrArg (fun l => l[i]?) hbounds
    simp only [List.getElem?_map, List.getElem?_eq_getElem hi, List.getElem?_eq_getElem (show i < es.length by omega), Option.map_some, Option.some.injEq, Prod.mk.injEq] at h
    exact ⟨h.1.symm, h.2.symm⟩
  have hcoef : (List.range (netSize (Create.withKnotVectors (unitSpline s a))).prod).map (fun i => ((Create.withKnotVectors (unitSpline s a)).controlPoints.getD i []).getD 0 0) =
      (List.range s.controlPoints.length).map fun j => if j = a then (1 : K) else 0 := by
    rw [← w1.net, hwcp]
    have : (unitSpline s a).controlPoints.length = s.controlPoints.length := by simp [unitSpline]
    rw [this]
    refine List.map_congr_left fun i hi => ?_
    exact unitSpline_get s a i (List.mem_range.1 hi)
  have hval : point (Create.withKnotVectors (unitSpline s a)) xs 0 =
      tensorEval (List.zipWith (fun d x => d.basisAt x) ds xs) (ds.map (·.nCps)) ((List.range s.controlPoints.length).map fun j => if j = a then 1 else 0) := by
    unfold point value
    rw [hww]
    simp only
    rw [hcoef, hwon.netSize, hwon.basisValues]
    congr 1
    refine List.ext_getElem (by simp) fun i h1 h2 => ?_
    simp only [List.length_zipWith] at h1
    have hid : i < ds.length := by omega
    have hie : i < es.length := by omega
    simp only [List.getElem_zipWith]
    funext j
    unfold BezierSpline.basisD Dim.basisAt
    refine basisC_eq_basis ?_ _ _
    rw [ds[i].end_knot, (hdl i hid).2, ← List.getD_eq_getElem xs 0 (by omega)]
    exact (hspan i hie).2.2.2.2.2.ne
  rw [hval, g2 xs (by omega) (by
    intro i hi
    have hid : i < ds.length := by simp [hds]; omega
    have : jobs[i].1 = ds[i] := by simp [hds, List.getElem_append_left (as := jobs.map (·.1)) (bs := rest) (by simpa using hi)]
    rw [this, (hdl i hid).1, (hdl i hid).2]
    exact (hspan i (by omega)).2.2.2.2)]
  obtain ⟨ids', y1, y2⟩ := x3 (applyAll gs ((List.range s.controlPoints.length).map fun j => if j = a then 1 else 0)) e hlt
  rw [hi1] at y1
  obtain rfl := Option.some.inj y1
  rw [y2 xs (by
    rw [List.forall₂_iff_get]
    refine ⟨by simp [hxl, ← hcs, hcsl], fun i h1 h2 => ?_⟩
    simp only [List.get_eq_getElem, List.getElem_zip]
    have hie : i < es.length := by omega
    have := hspan i hie
    rw [List.getD_eq_getElem xs 0 h2, List.getD_eq_getElem cs 0 (by omega)] at this
    exact ⟨this.2.2.1, this.2.2.2.1⟩), bezier_value, tensorEval_eq_sum]
  have hdims : es.map (fun d => d.degree + 1) = s.degrees.map (· + 1) := by
    rw [hsd, ← hdeg, List.map_map]; rfl
  rw [hdims]
  refine sum_congr rfl fun l hl => ?_
  rw [mem_range] at hl
  congr 1
  · congr 1
    refine List.ext_getElem (by simp [hxl, ← hcs, hcsl, hsd, hvl', hlen]) fun i h1 h2 => ?_
    simp only [List.length_zipWith] at h1
    have hie : i < es.length := by rw [hvl', ← hlen] at h1; omega
    simp only [List.getElem_zipWith, List.getElem_zip]
    funext j
    have := hspan i hie
    rw [List.getD_eq_getElem xs 0 (by omega), List.getD_eq_getElem cs 0 (by omega), List.getD_eq_getElem v 0 (by omega)] at this
    simp only [← hcs]
    rw [this.2.1, BezierSpline.bernstein_unit _ _ this.1]
    congr 1
    have h5 := congrArg (fun l => l[i]?) hdeg
    simp only [List.getElem?_map, List.getElem?_eq_getElem hie, Option.map_some] at h5
    have h6 := congrArg (fun l => l[i]?) hsd
    simp only [List.getElem?_map] at h6
    rw [← h5, List.getElem?_eq_getElem (by omega)] at h6
    exact Option.some.inj h6
  · rw [List.getD_eq_getElem (ids.map _) 0 (by rw [List.length_map, hidl]; exact hl), List.getElem_map, List.getD_eq_getElem ids 0 (by rw [hidl]; exact hl)]
    rfl

/-- The matrices of a microstructure on the grid of subdivided spans. -/
theorem matrices_parts {tol : K} (ht : 0 < tol) (mults : List K → List ℕ) (hm : BezierSpline.Spec.Multiplicities tol mults) (s : Spline K (List K)) (hs : ValidSpline s)
    (hw : s.weights = none) (ksw : Bool) (tiling : List Int) (jobs : List (Dim K × (ℕ → ℕ) × ℕ)) (rest : List (Dim K)) (hne : jobs ≠ [])
    (hon : On (Create.withKnotVectors s) (jobs.map (·.1) ++ rest))
    (hjob : ∀ j ∈ jobs, 1 ≤ j.2.2 ∧ j.1.Valid ((j.2.2 : K) * tol) ∧ (∀ i, 1 ≤ j.2.1 i) ∧ ∀ i < j.1.uniqueKnots.length - 1, j.2.1 i ≤ j.2.2)
    (hrest : ∀ d ∈ rest, d.Valid tol) (hcont : ∀ d ∈ jobs.map (·.1) ++ rest, ∀ g ∈ d.inner, g.2 ≤ d.degree)
    (tiling' : List Int) (hadd : Micro.additionalKnots ksw tiling ((jobs.map (·.1) ++ rest).map (·.uniqueKnots)) = some (tiling', jobs.map fun j => Micro.newOf j.1.uniqueKnots j.2.1))
    (breaks : List (List K)) (hbr : breaks = (jobs.map fun j => Micro.Spec.subdivide j.1.uniqueKnots j.2.1) ++ rest.map (·.uniqueKnots)) :
    ∃ Ms, macroMatrices tol mults ksw tiling s = some Ms ∧ Ms.length = (MicroGeometry.Spec.elements breaks).prod ∧
      ∀ e M, Ms[e]? = some M → ∀ a < s.controlPoints.length, ∀ v, MicroGeometry.Spec.Cube (jobs.map (·.1) ++ rest).length v →
        value (⟨s.degrees, none, none, []⟩ : Spline K (List K)) (fun l => M l a) v =
          Bases.Spec.basisFunction s (MicroGeometry.Spec.place breaks (digits (MicroGeometry.Spec.elements breaks) e) v) a := by
  have hadds := fun j hj => adds_subdivide ht (hjob j hj).1 (hjob j hj).2.1 j.2.1 (hjob j hj).2.2.1 (hjob j hj).2.2.2
  have hjv : ∀ j ∈ jobs, j.1.Valid tol := by
    intro j hj
    have h1 : (1 : K) ≤ (j.2.2 : K) := by exact_mod_cast (hjob j hj).1
    exact valid_mono (by nlinarith) (hjob j hj).2.1
  have hvd : ∀ d ∈ jobs.map (·.1) ++ rest, d.Valid tol := by
    intro d hd
    rcases List.mem_append.1 hd with h | h
    · obtain ⟨j, hj, rfl⟩ := List.mem_map.1 h
      exact hjv j hj
    · exact hrest d h
  obtain ⟨hunq, -⟩ := MicroGeometry.unique_deformation ht hon hvd
  have hdeg : s.degrees = (jobs.map (·.1) ++ rest).map (·.degree) := by
    rw [← hon.degrees]
    unfold Create.withKnotVectors; split <;> rfl
  obtain ⟨Ms, h1, h2, h3⟩ := matrices_coefficients ht mults hm
    (jobs.map fun j => (j.1, Micro.newOf j.1.uniqueKnots j.2.1, withBreaks j.1 (Micro.Spec.subdivide j.1.uniqueKnots j.2.1))) rest (by
      intro e he
      obtain ⟨j, hj, rfl⟩ := List.mem_map.1 he
      exact ⟨hjv j hj, (hadds j hj).1⟩) hrest (by simpa [List.map_map, Function.comp_def] using hcont) s hs hw (by simpa [List.map_map, Function.comp_def] using hon)
  simp only [List.map_map, Function.comp_def] at h1 h2 h3
  have hu : ((jobs.map fun j => withBreaks j.1 (Micro.Spec.subdivide j.1.uniqueKnots j.2.1)) ++ rest).map (·.uniqueKnots) = breaks := by
    rw [hbr, List.map_append, List.map_map]
    congr 1
    exact List.map_congr_left fun j hj => (hadds j hj).2
  simp only [← MicroGeometry.elements_eq, MicroGeometry.inSpan_eq, hu] at h2 h3
  refine ⟨Ms, ?_, h2, h3⟩
  unfold macroMatrices
  rw [hunq, hadd, Option.bind_some]
  simp only
  rw [if_neg (by simpa using hne), hon.knots, Option.getD_some, hdeg]
  exact h1

/-! ### the fields -/

theorem value_sum (degs : List ℕ) (n : ℕ) (f : ℕ → ℕ → K) (c : ℕ → K) (v : List K) :
    value (⟨degs, none, none, []⟩ : Spline K (List K)) (fun i => ∑ l ∈ range n, f l i * c l) v =
      ∑ l ∈ range n, value (⟨degs, none, none, []⟩ : Spline K (List K)) (f l) v * c l := by
  simp only [bezier_value]
  simp only [Finset.mul_sum, Finset.sum_mul]
  rw [Finset.sum_comm]
  refine sum_congr rfl fun l _ => sum_congr rfl fun i _ => ?_
  ring

theorem value_bernstein (degs : List ℕ) (c : ℕ → K) (v : List K) :
    value (⟨degs, none, none, []⟩ : Spline K (List K)) c v = ∑ l ∈ range (degs.map (· + 1)).prod, Spec.bernsteinAt degs l v * c l := by
  unfold Spec.bernsteinAt
  rw [bezier_value]
  refine sum_congr rfl fun l hl => ?_
  rw [bezier_value, sum_eq_single l (fun i _ hi => by simp [hi]) (fun h => absurd hl h)]
  simp

theorem value_congr (degs : List ℕ) (c c' : ℕ → K) (v : List K) (h : ∀ i < (degs.map (· + 1)).prod, c i = c' i) :
    value (⟨degs, none, none, []⟩ : Spline K (List K)) c v = value (⟨degs, none, none, []⟩ : Spline K (List K)) c' v := by
  rw [bezier_value, bezier_value]
  exact sum_congr rfl fun l hl => by rw [h l (mem_range.1 hl)]

/-- The control points of a field spline: the response, composed with the tile. -/
theorem field_point (degs degs' : List ℕ) (t : Spline K (List K)) (info : MicroCreate.BasisComposition K) (hB : Spec.BasisComposes degs t degs' info) (N dim : ℕ) (M : ℕ → ℕ → K)
    (ii jj : ℕ) (hi : ii < N) (hj : jj < dim) (cps : List (List K)) (hr : MicroCreate.Spec.Response N dim info M ii jj cps) (u : List K)
    (hu : MicroGeometry.Spec.Cube t.degrees.length u) (k : ℕ) (hk : k < dim) :
    point (⟨degs', none, none, cps⟩ : Spline K (List K)) u k =
      if k = jj then value (⟨degs, none, none, []⟩ : Spline K (List K)) (fun l => M l ii) (MicroGeometry.Spec.image degs.length t u) else 0 := by
  obtain ⟨-, -, h3⟩ := hr
  have hc : ∀ c < (degs'.map (· + 1)).prod, (cps.getD c []).getD k 0 = ∑ l ∈ range info.m, info.basis l c * (if k = jj then M l ii else 0) := by
    intro c hc
    have h := h3 (fun _ _ => 0) 1 c k (by rw [hB.rows]; exact hc) hk
    unfold MicroCreate.Spec.composed at h
    simp only [mul_zero, sum_const_zero, zero_add, one_mul] at h
    rw [← h]
    refine sum_congr rfl fun l _ => ?_
    congr 1
    by_cases hkj : k = jj
    · subst hkj
      rw [if_pos rfl, sum_eq_single ii (fun a _ ha => by simp [ha]) (fun hh => absurd (mem_range.2 hi) hh)]
      simp
    · rw [if_neg hkj, sum_eq_zero]
      intro a _
      simp [hkj]
  have hp : point (⟨degs', none, none, cps⟩ : Spline K (List K)) u k = value (⟨degs', none, none, []⟩ : Spline K (List K)) (fun i => (cps.getD i []).getD k 0) u := rfl
  rw [hp, value_congr degs' _ _ u hc, value_sum degs' info.m info.basis, sum_congr rfl fun l hl => by rw [hB.value l (mem_range.1 hl) u hu]]
  by_cases hkj : k = jj
  · simp only [if_pos hkj]
    rw [value_bernstein degs, hB.columns]
  · simp [hkj]

theorem fields_of_matrices (s : Spline K (List K)) (breaks : List (List K)) (matrices : Option (List (ℕ → ℕ → K)))
    (h : ∃ Ms, matrices = some Ms ∧ Ms.length = (MicroGeometry.Spec.elements breaks).prod ∧
      ∀ e M, Ms[e]? = some M → ∀ a < s.controlPoints.length, ∀ v, MicroGeometry.Spec.Cube s.degrees.length v →
        value (⟨s.degrees, none, none, []⟩ : Spline K (List K)) (fun l => M l a) v =
          Bases.Spec.basisFunction s (MicroGeometry.Spec.place breaks (digits (MicroGeometry.Spec.elements breaks) e) v) a) :
    Spec.HasSensitivities s breaks matrices := by
  obtain ⟨Ms, rfl, hl, hM⟩ := h
  refine ⟨⟨Ms, rfl, hl⟩, ?_⟩
  intro x t b hp hcl hm ht hs hb hN hC
  obtain rfl := Option.some.inj hm
  have hpart := fun ii jj hi hj => MicroCreate.create_macro_response_partial x t ht hs b hb s.controlPoints.length hN ii jj hi hj
  obtain ⟨ms, fields, hcr, -, hms, -⟩ := MicroCreate.create_fields_aligned x t ht hs hcl
  refine ⟨ms, fields, hcr, hms, ?_⟩
  intro ii hi jj hj
  obtain ⟨ms', fields', h1, cps, h2, h3⟩ := hpart ii jj hi hj
  rw [hcr] at h1
  obtain ⟨rfl, rfl⟩ := Prod.mk.inj (Option.some.inj h1)
  refine ⟨fun d q => x.bezier (b d q) (cps d q), h3, ?_⟩
  intro p hpz q hq u hu k hk
  obtain ⟨htp, degs', hb1, hb2⟩ := hC p hpz q hq
  have hpe : p.1 ∈ x.patches := (List.of_mem_zip hpz).1
  rw [hp, List.mem_range] at hpe
  simp only
  rw [hb1, field_point s.degrees degs' q (b p.1 q) hb2 s.controlPoints.length x.dim (x.matrix p.1) ii jj hi hj _ (h2 p.1 q) u hu k hk]
  have hMe : (x.patches.map x.matrix)[p.1]? = some (x.matrix p.1) := by
    rw [List.getElem?_map, hp, List.getElem?_range hpe]; rfl
  rw [hM p.1 _ hMe ii hi _ (htp.inside u hu)]

/-- C114. Knot-span-wise tiling: with macro sensitivities, the field of component `jj` of control point `ii` of the deformation function is, on each patch of the microstructure, the basis function of
this control point at the place of the tile patch, in component `jj`. -/
theorem macro_fields_span_wise {tol : K} (ht : 0 < tol) (mults : List K → List ℕ) (hm : BezierSpline.Spec.Multiplicities tol mults) (s : Spline K (List K)) (hs : ValidSpline s)
    (hw : s.weights = none) (ds : List (Dim K)) (tiles : List ℕ) (hne : ds ≠ []) (hlen : tiles.length = ds.length) (hon : On (Create.withKnotVectors s) ds)
    (hd : List.Forall₂ (fun d (t : ℕ) => 1 ≤ t ∧ d.Valid ((t : K) * tol)) ds tiles) (hcont : ∀ d ∈ ds, ∀ g ∈ d.inner, g.2 ≤ d.degree) :
    Spec.HasSensitivities s (List.zipWith (fun d t => Micro.Spec.subdivide d.uniqueKnots fun _ => t) ds tiles) (macroMatrices tol mults true (tiles.map Int.ofNat) s) := by
  have hsl : s.degrees.length = ds.length := by
    have := hon.degrees
    rw [show (Create.withKnotVectors s).degrees = s.degrees by unfold Create.withKnotVectors; split <;> rfl] at this
    rw [this, List.length_map]
  refine fields_of_matrices s _ _ ?_
  have hz1 : (ds.zip tiles).map (·.1) = ds := List.map_fst_zip (by omega)
  have e1 : ((ds.zip tiles).map fun p => (p.1, (fun _ => p.2 : ℕ → ℕ), p.2)).map (·.1) ++ [] = ds := by
    rw [List.append_nil, List.map_map]; exact hz1
  have h := matrices_parts ht mults hm s hs hw true (tiles.map Int.ofNat) ((ds.zip tiles).map fun p => (p.1, (fun _ => p.2 : ℕ → ℕ), p.2)) [] (by
      intro h
      rw [h] at e1
      exact hne e1.symm) (by rw [e1]; exact hon) (by
      intro j hj
      obtain ⟨p, hp, rfl⟩ := List.mem_map.1 hj
      obtain ⟨h1, h2⟩ := List.forall₂_zip hd (show (p.1, p.2) ∈ _ from hp)
      exact ⟨h1, h2, fun _ => h1, fun _ _ => le_rfl⟩) (by simp) (by rw [e1]; exact hcont) (tiles.map Int.ofNat) (by
      rw [e1, Micro.additionalKnots, if_pos rfl]
      have : (((tiles.map Int.ofNat).zip (ds.map (·.uniqueKnots))).mapM fun p => Micro.spanWise p.1 p.2) =
          some ((ds.zip tiles).map fun p => Micro.newOf p.1.uniqueKnots fun _ => p.2) := by
        clear e1 hz1 hon hcont hne hsl
        induction hd with
        | nil => rfl
        | @cons d t ds tiles h _ ih =>
          have ih := ih (by simpa using hlen)
          rw [List.map_cons, List.map_cons, List.zip_cons_cons, List.mapM_cons, ih]
          simp only
          rw [show Int.ofNat t = (t : Int) from rfl, Micro.spanWise_eq t h.1]
          rfl
      rw [this]
      simp [Function.comp_def]) _ rfl
  rw [e1] at h
  have e2 : (((ds.zip tiles).map fun p => (p.1, (fun _ => p.2 : ℕ → ℕ), p.2)).map fun j => Micro.Spec.subdivide j.1.uniqueKnots j.2.1) ++ ([] : List (Dim K)).map (·.uniqueKnots)
      = List.zipWith (fun d t => Micro.Spec.subdivide d.uniqueKnots fun _ => t) ds tiles := by
    rw [List.map_nil, List.append_nil, List.map_map]
    exact List.map_zip_eq_zipWith (f := fun p : Dim K × ℕ => Micro.Spec.subdivide p.1.uniqueKnots fun _ => p.2)
  rw [e2, ← hsl] at h
  exact h

/-- C114. The same for tilings with total numbers of tiles, if the first directions (at least one) get more tiles than they have knot spans, and the others not. -/
theorem macro_fields_total_partial {tol : K} (ht : 0 < tol) (mults : List K → List ℕ) (hm : BezierSpline.Spec.Multiplicities tol mults) (s : Spline K (List K)) (hs : ValidSpline s)
    (hw : s.weights = none) (ds rest : List (Dim K)) (tiles tilesr : List ℕ) (hne : ds ≠ []) (hon : On (Create.withKnotVectors s) (ds ++ rest))
    (hd : List.Forall₂ (fun d (t : ℕ) => d.uniqueKnots.length - 1 < t ∧ d.Valid ((t : K) * tol)) ds tiles)
    (hr : List.Forall₂ (fun d (t : ℕ) => t ≤ d.uniqueKnots.length - 1 ∧ d.Valid tol) rest tilesr)
    (hcont : ∀ d ∈ ds ++ rest, ∀ g ∈ d.inner, g.2 ≤ d.degree) :
    ∃ parts : List (ℕ → ℕ), parts.length = ds.length ∧
      (∀ (i : ℕ) (d : Dim K) (t : ℕ) (p : ℕ → ℕ), ds[i]? = some d → tiles[i]? = some t → parts[i]? = some p → Micro.Spec.Even d.uniqueKnots t p) ∧
      Spec.HasSensitivities s (List.zipWith (fun d p => Micro.Spec.subdivide d.uniqueKnots p) ds parts ++ rest.map (·.uniqueKnots))
        (macroMatrices tol mults false ((tiles ++ tilesr).map Int.ofNat) s) := by
  have hsl : s.degrees.length = (ds ++ rest).length := by
    have := hon.degrees
    rw [show (Create.withKnotVectors s).degrees = s.degrees by unfold Create.withKnotVectors; split <;> rfl] at this
    rw [this, List.length_map]
  have hlen : ds.length = tiles.length := hd.length_eq
  set dir : Dim K → Micro.Direction K := fun d => ⟨d.degree, d.knots⟩ with hdir
  have hdt : ∀ p ∈ ds.zip tiles, p.1.uniqueKnots.length - 1 < p.2 ∧ p.1.Valid ((p.2 : K) * tol) := fun p hp => List.forall₂_zip hd (show (p.1, p.2) ∈ _ from hp)
  have hrt : ∀ p ∈ rest.zip tilesr, p.2 ≤ p.1.uniqueKnots.length - 1 ∧ p.1.Valid tol := fun p hp => List.forall₂_zip hr (show (p.1, p.2) ∈ _ from hp)
  have hlenr : rest.length = tilesr.length := hr.length_eq
  have hdv : ∀ p ∈ ds.zip tiles, p.1.Valid tol := by
    intro p hp
    obtain ⟨h1, h2⟩ := hdt p hp
    have h1 : (1 : K) ≤ (p.2 : K) := by exact_mod_cast (by omega : 1 ≤ p.2)
    exact valid_mono (by nlinarith) h2
  have hrv : ∀ d ∈ rest, d.Valid tol := by
    intro d hd'
    obtain ⟨i, hi, rfl⟩ := List.getElem_of_mem hd'
    exact (List.forall₂_iff_get.1 hr).2 i hi (by omega) |>.2
  have hdsv : ∀ d ∈ ds, d.Valid tol := by
    intro d hd'
    obtain ⟨i, hi, rfl⟩ := List.getElem_of_mem hd'
    exact hdv (ds[i], tiles[i]) (by rw [List.mem_iff_getElem]; exact ⟨i, by simp; omega, by simp⟩)
  have hun : ∀ d : Dim K, d.Valid tol → Unique.uniqueKnots tol (dir d).knots (dir d).degree = d.uniqueKnots := fun d hv => unique_knots_dim ht hv
  have hsu : ∀ d : Dim K, d.Valid tol → d.uniqueKnots.Pairwise (· < ·) ∧ 2 ≤ d.uniqueKnots.length := fun d hv => ⟨unique_strict ht hv, by rw [unique_eq]; simp⟩
  have heven : ∀ p ∈ ds.zip tiles, Micro.Spec.Even p.1.uniqueKnots p.2 (Micro.partsOf tol (dir p.1) p.2) := by
    intro p hp
    have hv := hdv p hp
    unfold Micro.partsOf
    rw [hun _ hv]
    exact Micro.distribute_even _ (hsu _ hv).1 (hsu _ hv).2 p.2 (hdt p hp).1.le
  set jobs : List (Dim K × (ℕ → ℕ) × ℕ) := (ds.zip tiles).map fun p => (p.1, Micro.partsOf tol (dir p.1) p.2, p.2) with hjobs
  have hz1 : (ds.zip tiles).map (·.1) = ds := List.map_fst_zip (by omega)
  have e1 : jobs.map (·.1) = ds := by rw [hjobs, List.map_map]; exact hz1
  refine ⟨jobs.map (·.2.1), by simp [hjobs, hlen], ?_, ?_⟩
  · intro i d t p h1 h2 h3
    have hz : (ds.zip tiles)[i]? = some (d, t) := by
      rw [List.getElem?_zip_eq_some]; exact ⟨h1, h2⟩
    rw [hjobs, List.map_map, List.getElem?_map, hz] at h3
    simp only [Option.map_some, Option.some.injEq, Function.comp_apply] at h3
    rw [← h3]
    exact heven (d, t) (List.mem_of_getElem? hz)
  · refine fields_of_matrices s _ _ ?_
    have h := matrices_parts ht mults hm s hs hw false ((tiles ++ tilesr).map Int.ofNat) jobs rest (by
        intro h; rw [h] at e1; exact hne e1.symm) (by rw [e1]; exact hon) (by
        intro j hj
        obtain ⟨p, hp, rfl⟩ := List.mem_map.1 hj
        obtain ⟨h1, h2⟩ := hdt p hp
        obtain ⟨g1, g2, -⟩ := heven p hp
        refine ⟨by simp only; omega, h2, g1, fun i hi => ?_⟩
        have := Finset.single_le_sum (f := Micro.partsOf tol (dir p.1) p.2) (fun _ _ => Nat.zero_le _) (Finset.mem_range.2 hi)
        simp only at hi this ⊢
        omega) hrv (by rw [e1]; exact hcont) (Micro.total (((tiles ++ tilesr).map Int.ofNat).zip ((ds ++ rest).map (·.uniqueKnots)))).1 (by
        rw [e1, Micro.additionalKnots, if_neg (by simp)]
        have hk : (ds ++ rest).map (·.uniqueKnots) = Micro.ukvs tol (ds.map dir ++ rest.map dir) := by
          unfold Micro.ukvs
          rw [← List.map_append, List.map_map]
          refine List.map_congr_left fun d hd' => ?_
          rcases List.mem_append.1 hd' with h | h
          · exact (hun d (hdsv d h)).symm
          · exact (hun d (hrv d h)).symm
        have h2 : (Micro.total (((tiles ++ tilesr).map Int.ofNat).zip ((ds ++ rest).map (·.uniqueKnots)))).2 = jobs.map fun j => Micro.newOf j.1.uniqueKnots j.2.1 := by
          rw [hk, Micro.total_snd tol (ds.map dir) (rest.map dir) tiles tilesr (by simp [hlen]) ?_ ?_]
          · rw [hjobs, List.map_map]
            refine List.ext_getElem (by simp [hlen]) fun i h1 h2 => ?_
            simp only [List.length_map, List.length_zip] at h2
            simp only [List.getElem_zipWith, List.getElem_map, Function.comp_apply, List.getElem_zip]
            rw [hun _ (hdsv _ (List.getElem_mem _))]
          · intro d t hdt'
            rw [List.zip_map_left, List.mem_map] at hdt'
            obtain ⟨p, hp, he⟩ := hdt'
            obtain ⟨rfl, rfl⟩ := Prod.mk.inj he
            rw [hun _ (hdv p hp)]
            exact (hdt p hp).1
          · intro d t hdt'
            rw [List.zip_map_left, List.mem_map] at hdt'
            obtain ⟨p, hp, he⟩ := hdt'
            obtain ⟨rfl, rfl⟩ := Prod.mk.inj he
            rw [hun _ (hrt p hp).2]
            exact (hrt p hp).1
        rw [← h2]) _ rfl
    have e2 : (jobs.map fun j => Micro.Spec.subdivide j.1.uniqueKnots j.2.1) = List.zipWith (fun d p => Micro.Spec.subdivide d.uniqueKnots p) ds (jobs.map (·.2.1)) := by
      conv_rhs => rw [← e1]
      rw [List.zipWith_map]
      simp
    rw [e1, e2, ← hsl] at h
    exact h

/-- Three tiles in all on the two spans of the curve: the hypotheses hold. -/
example : ∃ parts : List (ℕ → ℕ), Spec.HasSensitivities MicroGeometry.sampleCurve
    (List.zipWith (fun (d : Dim ℝ) p => Micro.Spec.subdivide d.uniqueKnots p) [⟨2, 0, [(1 / 2, 1)], 1⟩] parts)
    (macroMatrices (1 / 1000) BezierSpline.runs false [3] MicroGeometry.sampleCurve) := by
  have hval : ValidSpline MicroGeometry.sampleCurve := by
    refine ⟨by rintro kvs ⟨⟩; rfl, ?_, by simp [MicroGeometry.sampleCurve, netSize, directions, Direction.size], by rintro ws ⟨⟩⟩
    intro d hd
    simp only [directions, MicroGeometry.sampleCurve, List.zipWith_cons_cons, List.zipWith_nil_left, List.mem_singleton] at hd
    subst hd
    rintro kv ⟨⟩
    refine ⟨?_, ?_⟩ <;> simp [Direction.lower, Direction.upper, knotSeq] <;> norm_num
  obtain ⟨parts, -, -, h⟩ := macro_fields_total_partial (tol := (1 / 1000 : ℝ)) (by norm_num) BezierSpline.runs (BezierSpline.runs_multiplicities (by norm_num)) MicroGeometry.sampleCurve hval rfl
    [⟨2, 0, [(1 / 2, 1)], 1⟩] [] [3] [] (by simp) ⟨rfl, rfl⟩ (by
      refine List.Forall₂.cons ⟨by simp [Dim.uniqueKnots, Dim.groups], by norm_num, by simp, ?_⟩ List.Forall₂.nil
      simp [Dim.groups]
      norm_num) List.Forall₂.nil (by simp)
  simp only [List.map_nil, List.append_nil] at h
  exact ⟨parts, h⟩

/-! ### the code violates C114 if no knots are needed -/

/-- The code violates C114 for total numbers of tiles: if no direction needs more knots, there are no matrices, `create` raises instead of returning the fields. -/
theorem macro_nothing_to_do_violates (tol : K) (mults : List K → List ℕ) (tiling : List Int) (s : Spline K (List K)) (breaks : List (List K))
    (h : ∀ p ∈ tiling.zip (MicroGeometry.uniqueKnots tol s), p.1 ≤ (p.2.length - 1 : ℕ)) :
    macroMatrices tol mults false tiling s = none ∧ ¬ Spec.HasSensitivities s breaks (macroMatrices tol mults false tiling s) := by
  have h2 := MicroGeometry.total_nothing _ h
  have h3 : macroMatrices tol mults false tiling s = none := by
    unfold macroMatrices Micro.additionalKnots
    rw [if_neg (by simp), Option.bind_some, if_pos h2]
  refine ⟨h3, fun hh => ?_⟩
  obtain ⟨l, hl, -⟩ := hh.1
  rw [h3] at hl
  cases hl

/-- one tile on a bilinear patch -/
example (mults : List ℚ → List ℕ) (breaks : List (List ℚ)) :
    ¬ Spec.HasSensitivities (⟨[1, 1], none, none, [[0, 0], [1, 0], [0, 1], [1, 1]]⟩ : Spline ℚ (List ℚ)) breaks
      (macroMatrices (1 / 1000) mults false [1, 1] ⟨[1, 1], none, none, [[0, 0], [1, 0], [0, 1], [1, 1]]⟩) :=
  (macro_nothing_to_do_violates _ _ _ _ _ (by
    intro p hp
    change p ∈ [((1 : Int), ([0, 1] : List ℚ)), (1, [0, 1])] at hp
    simp only [List.mem_cons, List.mem_nil_iff, or_false] at hp
    rcases hp with rfl | rfl <;> simp)).2

/-! ### compositions exist -/

/-- What C114 assumes about the library can be met for every tile patch. -/
theorem basis_composes_exists (degs : List ℕ) (t : Spline ℝ (List ℝ)) (ht : MicroGeometry.Spec.TilePatch degs.length t) :
    ∃ D info, Spec.BasisComposes degs t (List.replicate t.degrees.length D) info := by
  set n := t.degrees.length with hn
  set f : ℕ → MvPolynomial (Fin n) ℝ := fun l => MvPolynomial.bind₁ (fun i : Fin degs.length => DetSpline.splinePoly t.degrees fun g => (t.controlPoints.getD g []).getD i 0)
    (DetSpline.splinePoly degs fun i => if i = l then 1 else 0) with hf
  set D := (range (degs.map (· + 1)).prod).sup fun l => (f l).totalDegree with hD
  refine ⟨D, ⟨((List.replicate n D).map (· + 1)).prod, (degs.map (· + 1)).prod, fun l => BezierAlgebra.coefficients D (f l)⟩, rfl, rfl, ?_⟩
  intro l hl u hu
  have hval : ∀ (ds : List ℕ) (c : ℕ → ℝ) (v : List ℝ) (m : ℕ) (_ : ds.length = m) (_ : v.length = m),
      value (⟨ds, none, none, []⟩ : Spline ℝ (List ℝ)) c v = MvPolynomial.eval (fun i : Fin m => v.getD i 0) (DetSpline.splinePoly ds c) := by
    intro ds c v m h1 h2
    unfold value
    simp only [DetSpline.netSize_bezier]
    exact DetSpline.tensorEval_poly ds h1 none [] v h2 c
  simp only
  rw [hval _ _ u n (by simp) hu.1, BezierAlgebra.splinePoly_coefficients D (f l) (Finset.le_sup (f := fun l => (f l).totalDegree) (mem_range.2 hl)), Spec.bernsteinAt,
    hval degs _ _ degs.length rfl (by simp [MicroGeometry.Spec.image]), hf]
  simp only
  rw [MvPolynomial.eval, MvPolynomial.eval₂Hom_bind₁]
  change MvPolynomial.eval _ _ = MvPolynomial.eval _ _
  congr 2
  funext i
  rw [List.getD_eq_getElem _ 0 (by simp [MicroGeometry.Spec.image])]
  simp only [MicroGeometry.Spec.image, List.getElem_map, List.getElem_range]
  exact (DetSpline.point_poly t hn.symm ht.bezier.bezier (by simp [ht.polynomial]) u hu.1 i).symm

/-- Two tiles per knot span of a quadratic curve in the plane: eight fields, each with one segment per tile. The field of the second component of the second control point has, on the second tile,
the second basis function of the curve in its second component. -/
example : ∃ (x : MicroCreate.Input ℝ ℕ (Spline ℝ (List ℝ)) (Spline ℝ (List ℝ))) (ms : List (Spline ℝ (List ℝ))) (fields : List (List (Option (Spline ℝ (List ℝ))))),
    macroMatrices (1 / 1000) BezierSpline.runs true [2] MicroGeometry.sampleCurve = some (x.patches.map x.matrix) ∧
    MicroCreate.create x = some (ms, fields) ∧ ms.length = 4 ∧ ∃ c, (fields.getD 3 []).getD 1 none = some c ∧
      ∀ y, 0 ≤ y → y ≤ 1 → point c [y] 0 = 0 ∧ point c [y] 1 = Bases.Spec.basisFunction MicroGeometry.sampleCurve [1 / 4 + 1 / 4 * y] 1 := by
  have hval : ValidSpline MicroGeometry.sampleCurve := by
    refine ⟨by rintro kvs ⟨⟩; rfl, ?_, by simp [MicroGeometry.sampleCurve, netSize, directions, Direction.size], by rintro ws ⟨⟩⟩
    intro d hd
    simp only [directions, MicroGeometry.sampleCurve, List.zipWith_cons_cons, List.zipWith_nil_left, List.mem_singleton] at hd
    subst hd
    rintro kv ⟨⟩
    refine ⟨?_, ?_⟩ <;> simp [Direction.lower, Direction.upper, knotSeq] <;> norm_num
  have hbr : List.zipWith (fun (d : Dim ℝ) t => Micro.Spec.subdivide d.uniqueKnots fun _ => t) [(⟨2, 0, [(1 / 2, 1)], 1⟩ : Dim ℝ)] [2] = [[0, 1 / 4, 1 / 2, 3 / 4, 1]] := by
    have hu : (⟨2, 0, [(1 / 2, 1)], 1⟩ : Dim ℝ).uniqueKnots = [0, 1 / 2, 1] := rfl
    have hr2 : List.range 2 = [0, 1] := rfl
    rw [List.zipWith_cons_cons, List.zipWith_nil_left, hu]
    unfold Micro.Spec.subdivide
    simp [hr2]
    norm_num
  have hmain := macro_fields_span_wise (tol := (1 / 1000 : ℝ)) (by norm_num) BezierSpline.runs (BezierSpline.runs_multiplicities (by norm_num)) MicroGeometry.sampleCurve hval rfl
    [⟨2, 0, [(1 / 2, 1)], 1⟩] [2] (by simp) rfl ⟨rfl, rfl⟩ (by
      refine List.Forall₂.cons ⟨by norm_num, by norm_num, by simp, ?_⟩ List.Forall₂.nil
      simp [Dim.groups]
      norm_num) (by simp)
  rw [hbr] at hmain
  have hel : MicroGeometry.Spec.elements [[(0 : ℝ), 1 / 4, 1 / 2, 3 / 4, 1]] = [4] := rfl
  obtain ⟨⟨Ms, hMs, hl⟩, hx⟩ := hmain
  rw [hel, List.prod_singleton] at hl
  obtain ⟨htile, himg⟩ := MicroGeometry.sampleSegment_tile 1 (by norm_num) (by norm_num)
  obtain ⟨D, info, hinfo⟩ := basis_composes_exists [2] (MicroGeometry.sampleSegment 1) htile
  set x : MicroCreate.Input ℝ ℕ (Spline ℝ (List ℝ)) (Spline ℝ (List ℝ)) :=
    ⟨List.range 4, List.replicate 4 none, fun _ => none, none, 0, fun _ s _ => ([MicroGeometry.sampleSegment 1], (s.getD []).map fun _ => [MicroGeometry.sampleSegment 0]),
      fun _ t => t, fun _ _ t => t, some fun _ _ => info, fun _ cps => ⟨[D], none, none, cps⟩, fun e => Ms.getD e fun _ _ => 0, 2, 8⟩ with hxd
  have hmat : some Ms = some (x.patches.map x.matrix) := by
    congr 1
    refine List.ext_getElem (by simp [hxd, hl]) fun i h1 h2 => ?_
    simp only [hxd, List.getElem_map, List.getElem_range]
    exact (List.getD_eq_getElem _ _ h1).symm
  obtain ⟨ms, fields, h1, h2, h3⟩ := hx x ⟨fun _ _ => [MicroGeometry.sampleSegment 1], fun _ _ _ => [MicroGeometry.sampleSegment 0]⟩ (fun _ _ => info) rfl rfl (hMs.trans hmat)
    (fun p c => ⟨fun s => rfl, fun sens => ⟨rfl, fun _ _ => rfl⟩⟩) (by simp [hxd]) rfl rfl (by
      intro p _ q hq
      simp only [List.mem_singleton] at hq
      subst hq
      exact ⟨htile, [D], fun cps => rfl, hinfo⟩)
  obtain ⟨field, hf1, hf2⟩ := h3 1 (by simp [MicroGeometry.sampleCurve]) 1 (by simp [hxd])
  have hz : x.patches.zip x.closure = [(0, none), (1, none), (2, none), (3, none)] := rfl
  refine ⟨x, ms, fields, hMs.trans hmat, h1, by rw [h2, hz]; rfl, field 1 (MicroGeometry.sampleSegment 1), ?_, fun y hy0 hy1 => ?_⟩
  · have hf1 : fields[3]? = _ := hf1
    rw [hz] at hf1
    rw [List.getD_eq_getElem?_getD (l := fields), hf1]
    rfl
  · have := hf2 (1, none) (by rw [hz]; simp) (MicroGeometry.sampleSegment 1) (by simp) [y] ⟨rfl, by simpa using ⟨hy0, hy1⟩⟩
    have h0 := this 0 (by simp [hxd])
    have h1 := this 1 (by simp [hxd])
    rw [if_neg (by norm_num)] at h0
    rw [if_pos rfl] at h1
    refine ⟨h0, h1.trans ?_⟩
    have hd : digits [4] 1 = [1] := rfl
    have hsl : MicroGeometry.sampleCurve.degrees.length = 1 := rfl
    rw [hel, hd, hsl, himg]
    congr 1
    simp [MicroGeometry.Spec.place]
    norm_num

end Splinepy.MacroMatrix
