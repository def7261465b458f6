import Verif.Model.Orientation
import Mathlib.Analysis.Real.Sqrt
import Mathlib.Tactic.IntervalCases
import Mathlib.Tactic.Linarith
import Mathlib.Tactic.Ring
import Mathlib.Tactic.FieldSimp
import Mathlib.Tactic.NormNum

/-!
C51: the orientation of an interface is the permutation and the flips of the axes that map one patch onto the other.
-/
set_option linter.unusedSectionVars false

namespace Splinepy.Orientation

/-! ### Specification -/

/-- inner product of two vectors with `dim` components -/
def Spec.inner {K : Type} [Field K] (dim : ℕ) (a b : ℕ → K) : K := ((List.range dim).map (fun k => a k * b k)).sum

/-- the tangent along axis `i`, read from a Jacobian with `pd` columns -/
def Spec.tangent {K : Type} [Field K] (J : List K) (pd i : ℕ) : ℕ → K := fun k => J.getD (i + k * pd) 0

/-- No two axes of a patch are parallel up to the tolerance, and none is degenerate: the cosine of the angle between two tangents is at most `1 - tol`. -/
def Spec.Regular (tol : ℝ) (pd dim : ℕ) (J : List ℝ) : Prop :=
  (∀ i < pd, 0 < Spec.inner dim (Spec.tangent J pd i) (Spec.tangent J pd i)) ∧
  ∀ i < pd, ∀ j < pd, i ≠ j →
    |Spec.inner dim (Spec.tangent J pd i) (Spec.tangent J pd j)| ≤
      (1 - tol) * (√(Spec.inner dim (Spec.tangent J pd i) (Spec.tangent J pd i)) * √(Spec.inner dim (Spec.tangent J pd j) (Spec.tangent J pd j)))

/-- Axis `i` of the first patch runs along axis `π i` of the second one: `π` permutes the axes, takes the axis of the first face to the axis of the second, and
along the shared face the tangents agree up to a factor `c i`, which is positive if both run in the same direction and negative if they are opposite. -/
structure Spec.Matches (pd dim : ℕ) (Js : List ℝ) (faceS : ℕ) (Je : List ℝ) (faceE : ℕ) (π : ℕ → ℕ) (c : ℕ → ℝ) : Prop where
  into : ∀ i < pd, π i < pd
  inj : ∀ i < pd, ∀ j < pd, π i = π j → i = j
  face : π (faceS / 2) = faceE / 2
  faceLt : faceS / 2 < pd
  factor : ∀ i < pd, i ≠ faceS / 2 → c i ≠ 0
  parallel : ∀ i < pd, i ≠ faceS / 2 → ∀ k < dim, Spec.tangent Js pd i k = c i * Spec.tangent Je pd (π i) k

/-! ### proofs -/

theorem foldl_sum {K : Type} [Field K] (l : List ℕ) (f : ℕ → K) (a : K) : l.foldl (fun acc k => acc + f k) a = a + (l.map f).sum := by
  induction l generalizing a with
  | nil => simp
  | cons x l ih => rw [List.foldl_cons, ih]; simp [add_assoc]

theorem dot_eq (A : List ℝ) (i : ℕ) (B : List ℝ) (j pd dim : ℕ) :
    dot A i B j pd dim = Spec.inner dim (Spec.tangent A pd i) (Spec.tangent B pd j) := by
  unfold dot
  rw [foldl_sum, zero_add]; rfl

theorem inner_scale_left (dim : ℕ) (a b d : ℕ → ℝ) (c : ℝ) (h : ∀ k < dim, a k = c * b k) : Spec.inner dim a d = c * Spec.inner dim b d := by
  unfold Spec.inner
  rw [← List.sum_map_mul_left]
  congr 1
  apply List.map_congr_left
  intro k hk
  rw [h k (List.mem_range.1 hk)]; ring

theorem inner_comm (dim : ℕ) (a b : ℕ → ℝ) : Spec.inner dim a b = Spec.inner dim b a := by
  unfold Spec.inner
  congr 1
  apply List.map_congr_left
  intro k _; ring

theorem inner_scale_both (dim : ℕ) (a b : ℕ → ℝ) (c : ℝ) (h : ∀ k < dim, a k = c * b k) : Spec.inner dim a a = c ^ 2 * Spec.inner dim b b := by
  rw [inner_scale_left dim a b a c h, inner_comm dim b a, inner_scale_left dim a b b c h]; ring

/-- the test of the code, for a tangent that is a multiple of an axis of the second patch -/
theorem aligned_iff (tol : ℝ) (pd dim : ℕ) (Js Je : List ℝ) (i j p : ℕ) (c : ℝ) (hc : c ≠ 0) (htol : 0 < tol)
    (hpar : ∀ k < dim, Spec.tangent Js pd i k = c * Spec.tangent Je pd p k)
    (hreg : Spec.Regular tol pd dim Je) (hp : p < pd) (hj : j < pd) :
    aligned Real.sqrt tol pd dim Js i Je j = decide (j = p) := by
  unfold aligned
  rw [dot_eq, dot_eq, dot_eq, inner_scale_left dim _ _ (Spec.tangent Je pd j) c hpar, inner_scale_both dim _ _ c hpar]
  apply decide_eq_decide.2
  have hpp := hreg.1 p hp
  have hjj := hreg.1 j hj
  have hcpos : 0 < |c| := abs_pos.2 hc
  have hs1 : √(c ^ 2 * Spec.inner dim (Spec.tangent Je pd p) (Spec.tangent Je pd p) * Spec.inner dim (Spec.tangent Je pd j) (Spec.tangent Je pd j))
      = |c| * (√(Spec.inner dim (Spec.tangent Je pd p) (Spec.tangent Je pd p)) * √(Spec.inner dim (Spec.tangent Je pd j) (Spec.tangent Je pd j))) := by
    rw [Real.sqrt_mul (by positivity), Real.sqrt_mul (by positivity), Real.sqrt_sq_eq_abs, mul_assoc]
  rw [hs1, abs_div, abs_mul, abs_mul, abs_abs]
  have hsp := Real.sqrt_pos.2 hpp
  have hsj := Real.sqrt_pos.2 hjj
  rw [abs_of_pos (mul_pos hsp hsj), mul_div_mul_left _ _ (ne_of_gt hcpos)]
  constructor
  · intro h
    by_contra hne
    have h2 := hreg.2 p hp j hj (fun e => hne e.symm)
    rw [gt_iff_lt, lt_div_iff₀ (mul_pos hsp hsj)] at h
    linarith
  · rintro rfl
    rw [abs_of_pos hpp, Real.mul_self_sqrt hpp.le, div_self (ne_of_gt hpp)]
    linarith

theorem find?_unique (n p : ℕ) (hp : p < n) (f : ℕ → Bool) (h : ∀ j < n, f j = decide (j = p)) : (List.range n).find? f = some p := by
  rw [List.find?_eq_some_iff_getElem]
  refine ⟨by rw [h p hp]; simp, p, by simpa using hp, by simp, ?_⟩
  intro j hj
  have : f j = decide (j = p) := h j (by omega)
  simp only [List.getElem_range, this]
  simp; omega

/-- C51: for two patches that share a face, with regular axes, every entry of the mapping is the axis of the second patch that axis of the first runs along; the
flag of an axis along the face tells whether both run in the same direction; the flag of the axis across the face is 1 exactly if one of the two faces
is at the start and the other one at the end of its axis (the axes then run through the interface in the same direction). -/
theorem orientation_exact (tol : ℝ) (htol : 0 < tol) (pd dim : ℕ) (Js Je : List ℝ) (faceS faceE : ℕ) (π : ℕ → ℕ) (c : ℕ → ℝ)
    (hm : Spec.Matches pd dim Js faceS Je faceE π c) (hreg : Spec.Regular tol pd dim Je) :
    ∃ r : List (Option (ℕ × ℕ)), interfaceOrientation Real.sqrt tol pd dim Js faceS pd dim Je faceE = some r ∧ r.length = pd ∧
      ∀ i < pd, r[i]? = some (some (π i, if i = faceS / 2 then (if faceS % 2 = faceE % 2 then 0 else 1) else (if 0 < c i then 1 else 0))) := by
  unfold interfaceOrientation
  rw [if_neg (by simp)]
  refine ⟨_, rfl, by simp, fun i hi => ?_⟩
  rw [List.getElem?_map, List.getElem?_range hi, Option.map_some]
  congr 1
  unfold axis
  by_cases hf : i = faceS / 2
  · rw [if_pos hf, if_pos hf, hf, hm.face]
    congr 2
    rcases Nat.mod_two_eq_zero_or_one faceS with h1 | h1 <;> rcases Nat.mod_two_eq_zero_or_one faceE with h2 | h2 <;> simp [h1, h2]
  · rw [if_neg hf, if_neg hf]
    have hc := hm.factor i hi hf
    have hpi := hm.into i hi
    rw [find?_unique pd (π i) hpi _ (fun j hj => aligned_iff tol pd dim Js Je i j (π i) (c i) hc htol (hm.parallel i hi hf) hreg hpi hj)]
    simp only
    congr 2
    rw [dot_eq, inner_scale_left dim _ _ _ (c i) (hm.parallel i hi hf)]
    have hpp := hreg.1 _ hpi
    by_cases hpos : 0 < c i
    · rw [if_pos hpos, if_pos (mul_pos hpos hpp)]
    · rw [if_neg hpos, if_neg]
      rw [gt_iff_lt, mul_pos_iff]
      rintro (⟨h, _⟩ | ⟨_, h⟩)
      · exact hpos h
      · linarith

/-- exchanging the patches exchanges the roles: the inverse permutation, the same directions -/
theorem Spec.Matches.symm {pd dim : ℕ} {Js Je : List ℝ} {faceS faceE : ℕ} {π : ℕ → ℕ} {c : ℕ → ℝ} (h : Spec.Matches pd dim Js faceS Je faceE π c)
    {σ : ℕ → ℕ} (hσ : ∀ j < pd, σ j < pd ∧ π (σ j) = j) (heLt : faceE / 2 < pd) :
    Spec.Matches pd dim Je faceE Js faceS σ (fun j => (c (σ j))⁻¹) := by
  refine ⟨fun j hj => (hσ j hj).1, ?_, ?_, heLt, ?_, ?_⟩
  · intro i hi j hj e
    rw [← (hσ i hi).2, ← (hσ j hj).2, e]
  · exact h.inj _ (hσ _ heLt).1 _ h.faceLt ((hσ _ heLt).2.trans h.face.symm)
  · intro j hj hne
    refine inv_ne_zero (h.factor _ (hσ j hj).1 ?_)
    intro e
    apply hne
    rw [← (hσ j hj).2, e, h.face]
  · intro j hj hne k hk
    have hne' : σ j ≠ faceS / 2 := by
      intro e; apply hne; rw [← (hσ j hj).2, e, h.face]
    have h1 := h.parallel _ (hσ j hj).1 hne' k hk
    have h2 := h.factor _ (hσ j hj).1 hne'
    rw [(hσ j hj).2] at h1
    rw [h1, ← mul_assoc, inv_mul_cancel₀ h2, one_mul]

/-- C51: exchanging the two patches gives the inverse: if axis `i` is mapped to axis `j` with some flag, axis `j` is mapped back to `i` with the same flag. -/
theorem orientation_swap (tol : ℝ) (htol : 0 < tol) (pd dim : ℕ) (Js Je : List ℝ) (faceS faceE : ℕ) (π : ℕ → ℕ) (c : ℕ → ℝ)
    (hm : Spec.Matches pd dim Js faceS Je faceE π c) (hregS : Spec.Regular tol pd dim Js) (hregE : Spec.Regular tol pd dim Je) :
    ∃ r r' : List (Option (ℕ × ℕ)),
      interfaceOrientation Real.sqrt tol pd dim Js faceS pd dim Je faceE = some r ∧
      interfaceOrientation Real.sqrt tol pd dim Je faceE pd dim Js faceS = some r' ∧
      ∀ i < pd, ∃ j < pd, ∃ flag, r[i]? = some (some (j, flag)) ∧ r'[j]? = some (some (i, flag)) := by
  -- the inverse permutation
  have hsurj : ∀ j < pd, ∃ i < pd, π i = j := by
    have hinj : Function.Injective (fun x : Fin pd => (⟨π x, hm.into x x.2⟩ : Fin pd)) := by
      intro a b hab
      apply Fin.ext
      exact hm.inj a a.2 b b.2 (by simpa using hab)
    have hs := (Finite.injective_iff_surjective).1 hinj
    intro j hj
    obtain ⟨x, hx⟩ := hs ⟨j, hj⟩
    exact ⟨x, x.2, by simpa using congrArg Fin.val hx⟩
  classical
  let σ : ℕ → ℕ := fun j => if h : j < pd then (hsurj j h).choose else 0
  have hσ : ∀ j < pd, σ j < pd ∧ π (σ j) = j := by
    intro j hj
    simp only [σ, dif_pos hj]
    exact (hsurj j hj).choose_spec
  have heLt : faceE / 2 < pd := by rw [← hm.face]; exact hm.into _ hm.faceLt
  have hσπ : ∀ i < pd, σ (π i) = i := fun i hi => hm.inj _ (hσ _ (hm.into i hi)).1 _ hi (hσ _ (hm.into i hi)).2
  obtain ⟨r, hr, _, hr2⟩ := orientation_exact tol htol pd dim Js Je faceS faceE π c hm hregE
  obtain ⟨r', hr', _, hr2'⟩ := orientation_exact tol htol pd dim Je Js faceE faceS σ _ (hm.symm hσ heLt) hregS
  refine ⟨r, r', hr, hr', fun i hi => ⟨π i, hm.into i hi, _, hr2 i hi, ?_⟩⟩
  rw [hr2' (π i) (hm.into i hi), hσπ i hi]
  congr 3
  have hiff : π i = faceE / 2 ↔ i = faceS / 2 := by
    constructor
    · intro e; exact hm.inj _ hi _ hm.faceLt (e.trans hm.face.symm)
    · rintro rfl; exact hm.face
  by_cases hf : i = faceS / 2
  · rw [if_pos hf, if_pos (hiff.2 hf)]
    by_cases h : faceS % 2 = faceE % 2
    · rw [if_pos h, if_pos h.symm]
    · rw [if_neg h, if_neg (fun e => h e.symm)]
  · rw [if_neg hf, if_neg (fun e => hf (hiff.1 e))]
    simp only [inv_pos]

/-- C51: patches of different parametric or physical dimension are rejected, all others get one entry per axis. -/
theorem orientation_rejects_iff (sqrt : ℝ → ℝ) (tol : ℝ) (pdS dimS : ℕ) (Js : List ℝ) (faceS : ℕ) (pdE dimE : ℕ) (Je : List ℝ) (faceE : ℕ) :
    (interfaceOrientation sqrt tol pdS dimS Js faceS pdE dimE Je faceE = none ↔ pdS ≠ pdE ∨ dimS ≠ dimE) ∧
    ∀ r, interfaceOrientation sqrt tol pdS dimS Js faceS pdE dimE Je faceE = some r → r.length = pdS := by
  unfold interfaceOrientation
  constructor
  · split_ifs with h <;> simp [h]
  · intro r hr
    split_ifs at hr with h
    cases hr
    simp

/-- non-vacuity: a square whose right face is glued to the lower face of a square that is turned by a quarter, stretched by 2 and reversed along the face -/
example : Spec.Matches 2 2 [1, 0, 0, 1] 1 [0, 1, -2, 0] 2 (fun i => 1 - i) (fun _ => -1/2) ∧ Spec.Regular (1/10) 2 2 [0, 1, -2, 0] := by
  refine ⟨⟨by omega, by omega, rfl, by norm_num, fun _ _ _ => by norm_num, ?_⟩, ?_, ?_⟩
  · intro i hi hne k hk
    have : i = 1 := by omega
    subst this
    interval_cases k <;> norm_num [Spec.tangent]
  · intro i hi
    interval_cases i <;> norm_num [Spec.inner, Spec.tangent, List.range_succ]
  · intro i hi j hj hne
    have h4 : √(4 : ℝ) = 2 := by rw [show (4 : ℝ) = 2 ^ 2 by norm_num]; exact Real.sqrt_sq (by norm_num)
    interval_cases i <;> interval_cases j <;> first | (exact absurd rfl hne) | norm_num [Spec.inner, Spec.tangent, List.range_succ, h4]

/-- C51 fails for `tolerance = 0`: the entry of the axis along the face is never written, although the two patches match perfectly. -/
theorem orientation_zero_tolerance_violates :
    ∃ (Js Je : List ℝ) (faceS faceE : ℕ) (π : ℕ → ℕ) (c : ℕ → ℝ), Spec.Matches 2 2 Js faceS Je faceE π c ∧ Spec.Regular 0 2 2 Je ∧
      interfaceOrientation Real.sqrt 0 2 2 Js faceS 2 2 Je faceE = some [some (0, 1), none] := by
  refine ⟨[1, 0, 0, 1], [1, 0, 0, 1], 1, 0, id, fun _ => 1, ⟨by simp, by simp, rfl, by norm_num, fun _ _ _ => one_ne_zero, ?_⟩, ⟨?_, ?_⟩, ?_⟩
  · intros; simp
  · intro i hi
    interval_cases i <;> norm_num [Spec.inner, Spec.tangent, List.range_succ]
  · intro i hi j hj hne
    interval_cases i <;> interval_cases j <;> first | (exact absurd rfl hne) | norm_num [Spec.inner, Spec.tangent, List.range_succ]
  · unfold interfaceOrientation
    rw [if_neg (by simp)]
    simp [List.range_succ, axis, aligned, dot, entry]

/-- C51 fails for a second patch whose axes are nearly parallel at the interface: the first axis within the tolerance is taken, so that two axes are mapped to the
same one (here an angle of about 14 degrees, tolerance 0.1). -/
theorem orientation_skewed_violates :
    ∃ (Js Je : List ℝ) (faceS faceE : ℕ) (c : ℕ → ℝ), Spec.Matches 2 2 Js faceS Je faceE id c ∧
      (∀ i < 2, 0 < Spec.inner 2 (Spec.tangent Je 2 i) (Spec.tangent Je 2 i)) ∧
      interfaceOrientation Real.sqrt (1/10) 2 2 Js faceS 2 2 Je faceE = some [some (0, 1), some (0, 1)] := by
  refine ⟨[1, 0, 0, 1], [0.25, 0, 1, 1], 1, 0, fun _ => 1, ⟨by simp, by simp, rfl, by norm_num, fun _ _ _ => one_ne_zero, ?_⟩, ?_, ?_⟩
  · intro i hi hne k hk
    have : i = 1 := by omega
    subst this
    interval_cases k <;> norm_num [Spec.tangent]
  · intro i hi
    interval_cases i <;> norm_num [Spec.inner, Spec.tangent, List.range_succ]
  · have h1 : √(17/16 : ℝ) < 11/10 := by
      rw [Real.sqrt_lt' (by norm_num)]; norm_num
    have h0 : 0 < √(17/16 : ℝ) := Real.sqrt_pos.2 (by norm_num)
    have h2 : (9/10 : ℝ) < 1 / √(17/16 : ℝ) := by
      rw [lt_div_iff₀ h0]; linarith
    have ha : aligned Real.sqrt (1/10) 2 2 [1, 0, 0, 1] 1 [0.25, 0, 1, 1] 0 = true := by
      unfold aligned
      rw [decide_eq_true_eq]
      have e1 : dot [(1:ℝ), 0, 0, 1] 1 [0.25, 0, 1, 1] 0 2 2 = 1 := by norm_num [dot, entry, List.range_succ]
      have e2 : dot [(1:ℝ), 0, 0, 1] 1 [1, 0, 0, 1] 1 2 2 = 1 := by norm_num [dot, entry, List.range_succ]
      have e3 : dot [(0.25:ℝ), 0, 1, 1] 0 [0.25, 0, 1, 1] 0 2 2 = 17/16 := by norm_num [dot, entry, List.range_succ]
      rw [e1, e2, e3, one_mul, abs_of_pos (by positivity)]
      linarith
    unfold interfaceOrientation
    rw [if_neg (by simp)]
    have e1 : axis Real.sqrt (1/10) 2 2 [(1:ℝ), 0, 0, 1] 1 [0.25, 0, 1, 1] 0 0 = some (0, 1) := by simp [axis]
    have e2 : axis Real.sqrt (1/10) 2 2 [(1:ℝ), 0, 0, 1] 1 [0.25, 0, 1, 1] 0 1 = some (0, 1) := by
      unfold axis
      rw [if_neg (by norm_num)]
      have : (List.range 2).find? (aligned Real.sqrt (1/10) 2 2 [(1:ℝ), 0, 0, 1] 1 [0.25, 0, 1, 1]) = some 0 := by
        rw [show List.range 2 = [0, 1] from rfl, List.find?_cons_of_pos ha]
      rw [this]
      norm_num [dot, entry, List.range_succ]
    rw [show List.range 2 = [0, 1] from rfl]
    simp only [List.map_cons, List.map_nil, e1, e2]

end Splinepy.Orientation
