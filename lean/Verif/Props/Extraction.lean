import Verif.Props.GlobalInsertion
import Verif.Spec.Groups

/-!
Properties of the knot vectors used for the Bezier extraction (C04).
-/
namespace Splinepy.KnotInsertion
open Splinepy.Spec
set_option linter.unusedSectionVars false

variable {K : Type} [Field K] [LinearOrder K] [IsStrictOrderedRing K]

/-- prepend to both results -/
def pre (a b : List K) (r : List K × List K) : List K × List K := (a ++ r.1, b ++ r.2)

theorem pre_pre (a b a' b' : List K) (r : Option (List K × List K)) :
    (r.map (pre a' b')).map (pre a b) = r.map (pre (a ++ a') (b ++ b')) := by
  rw [Option.map_map]; congr 1; funext r; simp [pre]

theorem loop_low (deg : ℕ) (tol : K) (fuel : ℕ) (x : K) (old : List K) (r : ℕ) (c : K) (h : r ≤ deg) :
    extractionLoop deg tol (fuel + 1) (x :: old) r c =
      if |c - x| < tol then (extractionLoop deg tol fuel old (r + 1) c).map (pre [c] [])
      else (extractionLoop deg tol fuel (x :: old) (r + 1) c).map (pre [c] [c]) := by
  rw [extractionLoop]
  simp only [if_neg (show ¬ r > deg by omega)]
  rfl

theorem loop_high (deg : ℕ) (tol : K) (fuel : ℕ) (x : K) (old : List K) (r : ℕ) (c : K) (h : deg < r) (ht : 0 < tol) :
    extractionLoop deg tol (fuel + 1) (x :: old) r c = (extractionLoop deg tol fuel old 2 x).map (pre [x] []) := by
  rw [extractionLoop]
  simp only [if_pos (show r > deg by omega)]
  rw [if_pos (by rw [sub_self, abs_zero]; exact ht)]
  rfl

/-- copies of the current knot are taken over -/
theorem loop_copies (deg : ℕ) (tol : K) (ht : 0 < tol) (x : K) (m fuel r : ℕ) (rest : List K) (hr : r + m ≤ deg + 1) :
    extractionLoop deg tol (fuel + m) (List.replicate m x ++ rest) r x =
      (extractionLoop deg tol fuel rest (r + m) x).map (pre (List.replicate m x) []) := by
  induction m generalizing r with
  | zero =>
    simp only [List.replicate_zero, List.nil_append, Nat.add_zero]
    have : pre ([] : List K) [] = id := by funext r; simp [pre]
    rw [this]; simp
  | succ m ih =>
    rw [List.replicate_succ, List.cons_append, ← Nat.add_assoc, loop_low _ _ _ _ _ _ _ (by omega),
      if_pos (by rw [sub_self, abs_zero]; exact ht), ih (r + 1) (by omega)]
    rw [show r + 1 + m = r + (m + 1) by omega, pre_pre]
    simp

/-- missing copies are added -/
theorem loop_adds (deg : ℕ) (tol : K) (x y : K) (hxy : tol ≤ |x - y|) (k fuel r : ℕ) (rest : List K) (hr : r + k = deg + 1) :
    extractionLoop deg tol (fuel + k) (y :: rest) r x =
      (extractionLoop deg tol fuel (y :: rest) (deg + 1) x).map (pre (List.replicate k x) (List.replicate k x)) := by
  induction k generalizing r with
  | zero =>
    have : pre ([] : List K) [] = id := by funext r; simp [pre]
    simp only [List.replicate_zero, this, Nat.add_zero, Option.map_id_fun, id_eq]
    rw [show r = deg + 1 by omega]
  | succ k ih =>
    rw [← Nat.add_assoc, loop_low _ _ _ _ _ _ _ (by omega), if_neg (not_lt.2 hxy), ih (r + 1) (by omega), pre_pre]
    simp [List.replicate_succ]

/-- the reference knot is updated -/
theorem loop_reset (deg : ℕ) (tol : K) (ht : 0 < tol) (fuel : ℕ) (x c : K) (rest : List K) (hdeg : 1 ≤ deg) :
    extractionLoop deg tol fuel (x :: rest) (deg + 1) c = extractionLoop deg tol fuel (x :: rest) 1 x := by
  cases fuel with
  | zero => rfl
  | succ f =>
    rw [loop_high _ _ _ _ _ _ _ (by omega) ht, loop_low _ _ _ _ _ _ _ (by omega), if_pos (by rw [sub_self, abs_zero]; exact ht)]

/-- one inner knot of multiplicity `m` -/
theorem loop_group (deg : ℕ) (tol : K) (ht : 0 < tol) (hdeg : 1 ≤ deg) (x y : K) (hxy : tol ≤ |x - y|) (rest : List K) (m : ℕ) (hm : 1 ≤ m)
    (fuel : ℕ) (c : K) :
    extractionLoop deg tol (fuel + roundUp deg m) (List.replicate m x ++ y :: rest) (deg + 1) c =
      (extractionLoop deg tol fuel (y :: rest) (deg + 1) x).map
        (pre (List.replicate (roundUp deg m) x) (List.replicate (roundUp deg m - m) x)) := by
  induction m using Nat.strong_induction_on generalizing c with
  | _ m ih =>
    obtain ⟨m', rfl⟩ : ∃ m', m = m' + 1 := ⟨m - 1, by omega⟩
    rw [List.replicate_succ, List.cons_append, loop_reset _ _ ht _ _ _ _ hdeg, ← List.cons_append, ← List.replicate_succ]
    rcases Nat.lt_or_ge deg (m' + 1) with h | h
    · have hru : roundUp deg (m' + 1) = deg + roundUp deg (m' + 1 - deg) := by
        unfold roundUp
        rw [show m' + 1 + deg - 1 = (m' + 1 - deg + deg - 1) + deg by omega, Nat.add_div_right _ (by omega)]
        ring
      rw [hru]
      have hsplit : List.replicate (m' + 1) x = List.replicate deg x ++ List.replicate (m' + 1 - deg) x := by
        rw [← List.replicate_add]; congr 1; omega
      rw [hsplit, List.append_assoc, show fuel + (deg + roundUp deg (m' + 1 - deg)) = (fuel + roundUp deg (m' + 1 - deg)) + deg by omega,
        loop_copies _ _ ht _ _ _ _ _ (by omega), show 1 + deg = deg + 1 by omega, ih (m' + 1 - deg) (by omega) (by omega) x, pre_pre]
      rw [← List.replicate_add, List.nil_append, show deg + roundUp deg (m' + 1 - deg) - (m' + 1) = roundUp deg (m' + 1 - deg) - (m' + 1 - deg) by omega]
    · have hru : roundUp deg (m' + 1) = deg := by
        unfold roundUp
        rw [show m' + 1 + deg - 1 = m' + deg by omega, Nat.add_div_right _ (by omega), Nat.div_eq_of_lt (by omega)]
        simp
      rw [hru, show fuel + deg = (fuel + (deg - (m' + 1))) + (m' + 1) by omega, loop_copies _ _ ht _ _ _ _ _ (by omega),
        loop_adds _ _ _ _ hxy _ _ _ _ (by omega), pre_pre, ← List.replicate_add, List.nil_append, show m' + 1 + (deg - (m' + 1)) = deg by omega]

/-- groups of the knot vector for the extraction: inner multiplicities are rounded up to multiples of the degree -/
def fullGroups (deg : ℕ) (inner : List (K × ℕ)) : List (K × ℕ) := inner.map (fun g => (g.1, roundUp deg g.2))

/-- knots that are added -/
def addedGroups (deg : ℕ) (inner : List (K × ℕ)) : List (K × ℕ) := inner.map (fun g => (g.1, roundUp deg g.2 - g.2))

theorem loop_inner (deg : ℕ) (tol : K) (ht : 0 < tol) (hdeg : 1 ≤ deg) (b : K) (inner : List (K × ℕ)) (fuel : ℕ) (c : K)
    (hm : ∀ g ∈ inner, 1 ≤ g.2) (hgap : (inner.map (·.1) ++ [b]).Pairwise (fun x y => x + tol ≤ y)) :
    extractionLoop deg tol (fuel + (deg + 1) + ((fullGroups deg inner).map (·.2)).sum) (expand inner ++ List.replicate (deg + 1) b) (deg + 1) c =
      some (expand (fullGroups deg inner) ++ List.replicate (deg + 1) b, expand (addedGroups deg inner)) := by
  induction inner generalizing c with
  | nil =>
    simp only [fullGroups, addedGroups, expand, List.map_nil, List.sum_nil, List.flatMap_nil, List.nil_append, Nat.add_zero]
    rw [List.replicate_succ, loop_reset _ _ ht _ _ _ _ hdeg, ← List.replicate_succ, List.replicate_succ', ← Nat.add_assoc]
    rw [show fuel + deg + 1 = (fuel + 1) + deg by omega, loop_copies _ _ ht _ _ _ _ _ (by omega), show 1 + deg = deg + 1 by omega, loop_high _ _ _ _ _ _ _ (by omega) ht]
    cases fuel <;> simp [extractionLoop, pre]
  | cons g inner ih =>
    obtain ⟨x, m⟩ := g
    simp only [List.map_cons, List.cons_append, List.pairwise_cons] at hgap
    have hstep : ∃ y rest, expand inner ++ List.replicate (deg + 1) b = y :: rest ∧ tol ≤ |x - y| := by
      cases inner with
      | nil =>
        refine ⟨b, List.replicate deg b, by simp [expand, List.replicate_succ], ?_⟩
        have := hgap.1 b (by simp)
        rw [abs_sub_comm]
        exact le_trans (by linarith) (le_abs_self _)
      | cons g' inner =>
        obtain ⟨x', m'⟩ := g'
        have h1 := hm (x', m') (by simp)
        obtain ⟨k, rfl⟩ : ∃ k, m' = k + 1 := ⟨m' - 1, by simp at h1; omega⟩
        refine ⟨x', List.replicate k x' ++ (expand inner ++ List.replicate (deg + 1) b), by simp [expand, List.replicate_succ], ?_⟩
        have := hgap.1 x' (by simp)
        rw [abs_sub_comm]
        exact le_trans (by linarith) (le_abs_self _)
    obtain ⟨y, rest, hyr, hxy⟩ := hstep
    have ih' := ih x (fun g hg => hm g (by simp [hg])) hgap.2
    have hexp : expand ((x, m) :: inner) ++ List.replicate (deg + 1) b = List.replicate m x ++ y :: rest := by
      simp only [expand, List.flatMap_cons, List.append_assoc] at hyr ⊢
      rw [hyr]
    rw [hexp, show fuel + (deg + 1) + ((fullGroups deg ((x, m) :: inner)).map (·.2)).sum =
      (fuel + (deg + 1) + ((fullGroups deg inner).map (·.2)).sum) + roundUp deg m by simp [fullGroups]; omega,
      loop_group deg tol ht hdeg x y hxy rest m (hm (x, m) (by simp)), ← hyr, ih']
    simp [pre, expand, fullGroups, addedGroups]

theorem roundUp_ge (p m : ℕ) (hp : 1 ≤ p) : m ≤ roundUp p m := by
  unfold roundUp
  have h1 := Nat.mod_add_div (m + p - 1) p
  have h2 := Nat.mod_lt (m + p - 1) (show p > 0 by omega)
  generalize p * ((m + p - 1) / p) = w at *
  omega

theorem roundUp_le (p m : ℕ) (hp : 1 ≤ p) (hm : 1 ≤ m) : roundUp p m ≤ m * p := by
  unfold roundUp
  rw [mul_comm]
  apply Nat.mul_le_mul_right
  have : m + p - 1 < (m + 1) * p := by
    have h := Nat.le_mul_of_pos_right m hp
    rw [Nat.add_mul]; omega
  have := Nat.div_lt_of_lt_mul (show m + p - 1 < p * (m + 1) by rw [mul_comm]; exact this)
  omega

theorem roundUp_of_le (p m : ℕ) (h1 : 1 ≤ m) (h : m ≤ p) : roundUp p m = p := by
  unfold roundUp
  rw [show m + p - 1 = (m - 1) + p by omega, Nat.add_div_right _ (by omega), Nat.div_eq_of_lt (by omega)]
  simp

theorem length_expand (gs : List (K × ℕ)) : (expand gs).length = (gs.map (·.2)).sum := by
  induction gs with
  | nil => rfl
  | cons g gs ih => simp only [expand, List.flatMap_cons, List.length_append, List.length_replicate] at *; simp [ih]

/-- **C04** (what is missing: degree 0 and knot vectors without full end multiplicities, where `ExtractionLimits.lean` proves the opposite). For a clamped knot vector with first knot `a`, last knot `b` and arbitrary inner knots with multiplicities, the knot vector on
which the Bezier extraction is based is the same with every inner multiplicity rounded up to a multiple of the degree; in
particular every inner knot gets at least multiplicity `deg`, exactly `deg` if it had at most that. The second result lists exactly
the additional copies. -/
theorem extraction_knots_partial (deg : ℕ) (tol : K) (ht : 0 < tol) (hdeg : 1 ≤ deg) (a b : K) (inner : List (K × ℕ)) (hm : ∀ g ∈ inner, 1 ≤ g.2)
    (hgap : (a :: (inner.map (·.1) ++ [b])).Pairwise (fun x y => x + tol ≤ y)) :
    extractionKnots deg tol (expand ((a, deg + 1) :: inner ++ [(b, deg + 1)])) =
      some (expand ((a, deg + 1) :: inner.map (fun g => (g.1, roundUp deg g.2)) ++ [(b, deg + 1)]),
        expand (inner.map (fun g => (g.1, roundUp deg g.2 - g.2)))) := by
  have hold : expand ((a, deg + 1) :: inner ++ [(b, deg + 1)]) = List.replicate (deg + 1) a ++ (expand inner ++ List.replicate (deg + 1) b) := by
    simp [expand]
  have hlen : (expand ((a, deg + 1) :: inner ++ [(b, deg + 1)])).length = (deg + 1) * 2 + (inner.map (·.2)).sum := by
    rw [length_expand]; simp; ring
  unfold extractionKnots
  rw [if_neg (by omega)]
  simp only [hlen]
  rw [show (deg + 1) * 2 + (inner.map (·.2)).sum - (deg + 1) * 2 = (inner.map (·.2)).sum by omega]
  have hcap : ((fullGroups deg inner).map (·.2)).sum ≤ (inner.map (·.2)).sum * deg := by
    clear hold hlen hgap
    induction inner with
    | nil => simp [fullGroups]
    | cons g inner ih =>
      have h1 := ih (fun g hg => hm g (by simp [hg]))
      have h2 := roundUp_le deg g.2 hdeg (hm g (by simp))
      simp only [fullGroups, List.map_cons, List.sum_cons, List.map_map] at *
      nlinarith
  have hadd : ((addedGroups deg inner).map (·.2)).sum ≤ ((fullGroups deg inner).map (·.2)).sum := by
    clear hold hlen hgap hcap hm
    induction inner with
    | nil => simp [fullGroups, addedGroups]
    | cons g inner ih =>
      simp only [fullGroups, addedGroups, List.map_cons, List.sum_cons, List.map_map] at *
      omega
  have h0 : at_ (expand ((a, deg + 1) :: inner ++ [(b, deg + 1)])) 0 = a := by
    rw [hold]; simp [at_, List.replicate_succ]
  rw [h0, hold]
  obtain ⟨fuel, hf⟩ : ∃ fuel, (inner.map (·.2)).sum * deg + (deg + 1) * 2 =
      (fuel + (deg + 1) + ((fullGroups deg inner).map (·.2)).sum) + (deg + 1) :=
    ⟨(inner.map (·.2)).sum * deg - ((fullGroups deg inner).map (·.2)).sum, by omega⟩
  rw [hf, loop_copies _ _ ht _ _ _ _ _ (by omega), Nat.zero_add, loop_inner deg tol ht hdeg b inner fuel a hm (List.pairwise_cons.1 hgap).2]
  simp only [Option.map_some, Option.bind_some, pre, List.nil_append]
  rw [if_pos (by rw [length_expand]; omega)]
  simp [expand, fullGroups, addedGroups]

example : extractionKnots 2 (1 / 1000) [0, 0, 0, 1, 2, 2, 2, 3, 3, (3 : ℚ)] =
    some ([0, 0, 0, 1, 1, 2, 2, 2, 2, 3, 3, 3], [1, 2]) := by decide +kernel

end Splinepy.KnotInsertion
