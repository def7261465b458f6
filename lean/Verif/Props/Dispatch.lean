import Verif.Model.Dispatch
import Verif.Props.Mismatch
import Mathlib.Tactic.IntervalCases
import Mathlib.Data.Rat.Defs
import Mathlib.Algebra.Field.Rat

/-!
C135: which splines can be created, and what is created. C136: a field with missing entries is zero on those patches.
-/
namespace Splinepy.Dispatch
open Splinepy.Mismatch (Patch Outcome)

/-! ### Specification of C135 -/

/-- largest supported dimension of the two builds -/
def Spec.limit (more : Bool) : ℤ := if more then 10 else 3

/-- the kind a user asks for by giving knot vectors and weights or not -/
def Spec.kindOf (knotVectors weights : Bool) : Kind :=
  match knotVectors, weights with
  | false, false => .bezier
  | false, true => .rationalBezier
  | true, false => .bspline
  | true, true => .nurbs

/-! ### creation -/

theorem switch_none {α : Type} (x : ℤ) (cases : List (ℤ × α)) (h : ∀ c ∈ cases, c.1 ≠ x) : switchOn x cases = none := by
  unfold switchOn
  rw [List.find?_eq_none.mpr (by intro c hc; simpa using h c hc)]
  rfl

theorem bezier_row (more : Bool) (p d : ℤ) (h1 : 1 ≤ p) (h2 : p ≤ Spec.limit more) :
    createBezier more p d = if 1 ≤ d ∧ d ≤ Spec.limit more then some ⟨.bezier, p.toNat, d⟩ else none := by
  by_cases h : 1 ≤ d ∧ d ≤ Spec.limit more
  · rw [if_pos h]
    obtain ⟨h3, h4⟩ := h
    cases more
    · change p ≤ 3 at h2; change d ≤ 3 at h4
      interval_cases p <;> interval_cases d <;> rfl
    · change p ≤ 10 at h2; change d ≤ 10 at h4
      interval_cases p <;> interval_cases d <;> rfl
  · rw [if_neg h]
    cases more
    · change p ≤ 3 at h2
      have hd : ¬ (1 ≤ d ∧ d ≤ 3) := h
      interval_cases p <;> exact switch_none _ _ (by simp; omega)
    · change p ≤ 10 at h2
      have hd : ¬ (1 ≤ d ∧ d ≤ 10) := h
      interval_cases p <;> exact switch_none _ _ (by simp; omega)

theorem rational_bezier_row (more : Bool) (p d : ℤ) (h1 : 1 ≤ p) (h2 : p ≤ Spec.limit more) :
    createRationalBezier more p d = if 1 ≤ d ∧ d ≤ Spec.limit more then some ⟨.rationalBezier, p.toNat, d⟩ else none := by
  by_cases h : 1 ≤ d ∧ d ≤ Spec.limit more
  · rw [if_pos h]
    obtain ⟨h3, h4⟩ := h
    cases more
    · change p ≤ 3 at h2; change d ≤ 3 at h4
      interval_cases p <;> interval_cases d <;> rfl
    · change p ≤ 10 at h2; change d ≤ 10 at h4
      interval_cases p <;> interval_cases d <;> rfl
  · rw [if_neg h]
    cases more
    · change p ≤ 3 at h2
      have hd : ¬ (1 ≤ d ∧ d ≤ 3) := h
      interval_cases p <;> exact switch_none _ _ (by simp; omega)
    · change p ≤ 10 at h2
      have hd : ¬ (1 ≤ d ∧ d ≤ 10) := h
      interval_cases p <;> exact switch_none _ _ (by simp; omega)

theorem out_of_range {α : Type} (more : Bool) (p : ℤ) (h : ¬ (1 ≤ p ∧ p ≤ Spec.limit more)) (a1 a2 a3 a4 a5 a6 a7 a8 a9 a10 : Option α) :
    (switchOn p ([(1, a1), (2, a2), (3, a3)] ++
      (if more then [(4, a4), (5, a5), (6, a6), (7, a7), (8, a8), (9, a9), (10, a10)] else []))).bind id = none := by
  rw [switch_none]
  · rfl
  · cases more
    · have hd : ¬ (1 ≤ p ∧ p ≤ 3) := h
      simp; omega
    · have hd : ¬ (1 ≤ p ∧ p ≤ 10) := h
      simp; omega

theorem bspline_row (more : Bool) (p d : ℤ) (h1 : 1 ≤ p) (h2 : p ≤ Spec.limit more) :
    createBSpline more p d = some ⟨.bspline, p.toNat, d⟩ := by
  cases more
  · change p ≤ 3 at h2; interval_cases p <;> rfl
  · change p ≤ 10 at h2; interval_cases p <;> rfl

theorem nurbs_row (more : Bool) (p d : ℤ) (h1 : 1 ≤ p) (h2 : p ≤ Spec.limit more) :
    createNurbs more p d = some ⟨.nurbs, p.toNat, d⟩ := by
  cases more
  · change p ≤ 3 at h2; interval_cases p <;> rfl
  · change p ≤ 10 at h2; interval_cases p <;> rfl

/-- C135: for both builds, all combinations of given properties and all dimensions: creation succeeds exactly if degrees and control points are given, the parametric
dimension is supported and, for the kinds without knot vectors, the physical dimension is supported; and what is created has the requested kind, parametric and physical
dimension. In all other cases an exception is raised. -/
theorem create_exact (more degrees knotVectors controlPoints weights : Bool) (p d : ℤ) (c : Created) :
    create more degrees knotVectors controlPoints weights p d = some c ↔
      (degrees = true ∧ controlPoints = true) ∧ (1 ≤ p ∧ p ≤ Spec.limit more) ∧ (knotVectors = false → 1 ≤ d ∧ d ≤ Spec.limit more) ∧
      c = ⟨Spec.kindOf knotVectors weights, p.toNat, d⟩ := by
  cases degrees
  · simp [create]
  cases controlPoints
  · simp [create]
  by_cases hp : 1 ≤ p ∧ p ≤ Spec.limit more
  · obtain ⟨h1, h2⟩ := hp
    cases knotVectors <;> cases weights
    · simp only [create, bezier_row more p d h1 h2, Spec.kindOf, h1, h2]
      by_cases h : 1 ≤ d ∧ d ≤ Spec.limit more <;> simp [h, eq_comm]
    · simp only [create, rational_bezier_row more p d h1 h2, Spec.kindOf, h1, h2]
      by_cases h : 1 ≤ d ∧ d ≤ Spec.limit more <;> simp [h, eq_comm]
    · simp [create, bspline_row more p d h1 h2, Spec.kindOf, h1, h2, eq_comm]
    · simp [create, nurbs_row more p d h1 h2, Spec.kindOf, h1, h2, eq_comm]
  · have e1 : createBezier more p d = none := out_of_range more p hp _ _ _ _ _ _ _ _ _ _
    have e2 : createRationalBezier more p d = none := out_of_range more p hp _ _ _ _ _ _ _ _ _ _
    have e3 : createBSpline more p d = none := out_of_range more p hp _ _ _ _ _ _ _ _ _ _
    have e4 : createNurbs more p d = none := out_of_range more p hp _ _ _ _ _ _ _ _ _ _
    constructor
    · intro h
      exfalso
      cases knotVectors <;> cases weights <;> simp [create, e1, e2, e3, e4] at h
    · rintro ⟨-, h, -⟩; exact absurd h hp

/-- a volume in seven dimensions in the default build; the same is refused by the small build, but not as a NURBS -/
example : create true true false true true 3 7 = some ⟨.rationalBezier, 3, 7⟩ ∧ create false true false true true 3 7 = none ∧
    create false true true true true 3 7 = some ⟨.nurbs, 3, 7⟩ := by decide

/-- C135, placeholders, small build: a placeholder exists for all dimensions in which a spline without knot vectors can be created, and it reports these dimensions. -/
theorem null_lookup_partial (degrees knotVectors controlPoints weights : Bool) (p d : ℤ) (c : Created)
    (h : create false degrees knotVectors controlPoints weights p d = some c) (hd : 1 ≤ d ∧ d ≤ 10) :
    ∃ a, nullLookup false p d = some a ∧ a.paraDim = c.paraDim ∧ (a.dim : ℤ) = c.dim ∧ a.isNull = true := by
  obtain ⟨-, ⟨h1, h2⟩, -, rfl⟩ := (create_exact ..).mp h
  change p ≤ 3 at h2
  refine ⟨nullAttributes (p - 1).toNat (d - 1).toNat, ?_, ?_, ?_, rfl⟩
  · unfold nullLookup maxLookupDim; rw [if_pos]; simp only [Bool.false_eq_true, if_false]; omega
  · simp [nullAttributes]; omega
  · simp [nullAttributes]; omega

/-- C135, placeholders, both builds: inside of the table the placeholder reports the requested dimensions; outside the array is left. -/
theorem null_lookup_exact (more : Bool) (p d : ℤ) :
    (∃ a, nullLookup more p d = some a) ↔ (1 ≤ p ∧ p ≤ maxLookupDim more ∧ 1 ≤ d ∧ d ≤ maxLookupDim more) := by
  unfold nullLookup
  split_ifs with h
  · simp; omega
  · simp; omega

/-- what the table contains -/
theorem null_lookup_dims {more : Bool} {p d : ℤ} {a : Patch} (h : nullLookup more p d = some a) :
    (a.paraDim : ℤ) = p ∧ (a.dim : ℤ) = d ∧ a.isNull = true ∧ a.name = "NullSpline" ∧ 1 ≤ p ∧ 1 ≤ d := by
  unfold nullLookup at h
  split_ifs at h with hc
  simp at h; subst h
  refine ⟨?_, ?_, rfl, rfl, ?_, ?_⟩ <;> (try simp only [nullAttributes]) <;> omega

/-- C135 fails for placeholders in the default build: for every parametric dimension from 4 to 10, and every physical dimension from 4 to 10, splines of all kinds can be
created, but the placeholder is read from outside of the table. -/
theorem null_more_violates (knotVectors weights : Bool) (p d : ℤ) (hp : 1 ≤ p ∧ p ≤ 10) (hd : 1 ≤ d ∧ d ≤ 10) (hl : 4 ≤ p ∨ 4 ≤ d) :
    (∃ c, create true true knotVectors true weights p d = some c) ∧ nullLookup true p d = none := by
  refine ⟨⟨_, (create_exact ..).mpr ⟨⟨rfl, rfl⟩, hp, fun _ => hd, rfl⟩⟩, ?_⟩
  unfold nullLookup maxLookupDim
  rw [if_neg]
  simp; omega

example : (∃ c, create true true true true false 2 4 = some c) ∧ nullLookup true 2 4 = none := null_more_violates true false 2 4 (by decide) (by decide) (by decide)

/-! ### C136: fields -/

variable {K : Type} [Field K]

/-- Specification: value of an entry of a field at a query: that of the given spline, or the zero vector of the dimension of the field -/
def Spec.fieldValue (fieldDim : ℕ) (e : Option (Core K)) (q : List K) : List K :=
  match e with
  | some c => c.eval q
  | none => List.replicate fieldDim 0

/-- contract of a core spline: evaluation gives as many numbers as its dimension says -/
def Spec.FillsDim (e : Option (Core K)) : Prop := ∀ c, e = some c → ∀ q, (c.eval q).length = c.attrs.dim

omit [Field K] in
theorem writeAt_length {buf vals out : List K} {off : ℕ} (h : writeAt buf off vals = some out) : out.length = buf.length := by
  unfold writeAt at h
  split_ifs at h with hc
  simp at h; subst h
  simp; omega

omit [Field K] in
theorem writeAt_get {buf vals out : List K} {off : ℕ} (h : writeAt buf off vals = some out) (k : ℕ) :
    out[k]? = if off ≤ k ∧ k < off + vals.length then vals[k - off]? else buf[k]? := by
  unfold writeAt at h
  split_ifs at h with hc
  simp at h; subst h
  have hoff : off ≤ buf.length := by omega
  by_cases h1 : k < off
  · rw [if_neg (by omega), List.getElem?_append_left (by simp; omega), List.getElem?_take_of_lt h1]
  · rw [List.getElem?_append_right (by simp; omega)]
    simp only [List.length_take, min_eq_left hoff]
    by_cases h2 : k < off + vals.length
    · rw [if_pos ⟨by omega, h2⟩, List.getElem?_append_left (by omega)]
    · rw [if_neg (by omega), List.getElem?_append_right (by omega), List.getElem?_drop]
      congr 1; omega

omit [Field K] in
theorem writeAt_some {buf vals : List K} {off : ℕ} (h : off + vals.length ≤ buf.length) : ∃ out, writeAt buf off vals = some out :=
  ⟨_, if_pos h⟩

/-- Writing the rows of a matrix, in any order. -/
theorem fold_rows (n dim : ℕ) (row : ℕ → List K) (step : List K → ℕ → Option (List K)) (hrow : ∀ i < n, (row i).length = dim)
    (hstep : ∀ i < n, ∀ b, step b i = writeAt b (i * dim) (row i)) :
    ∀ (order : List ℕ), (∀ i ∈ order, i < n) → ∀ buf : List K, buf.length = n * dim →
      ∃ out, order.foldlM step buf = some out ∧ out.length = n * dim ∧
        ∀ i < n, ∀ k < dim, out[i * dim + k]? = if i ∈ order then (row i)[k]? else buf[i * dim + k]? := by
  intro order
  induction order with
  | nil => intro _ buf hb; exact ⟨buf, rfl, hb, by simp⟩
  | cons i rest ih =>
    intro ho buf hb
    have hi : i < n := ho i (by simp)
    have hle : (i + 1) * dim ≤ n * dim := Nat.mul_le_mul_right _ hi
    obtain ⟨b1, hb1⟩ := writeAt_some (buf := buf) (vals := row i) (off := i * dim) (by rw [hrow i hi, hb]; linarith [Nat.succ_mul i dim])
    obtain ⟨out, h1, h2, h3⟩ := ih (fun j hj => ho j (by simp [hj])) b1 (by rw [writeAt_length hb1, hb])
    refine ⟨out, ?_, h2, ?_⟩
    · rw [List.foldlM_cons, hstep i hi, hb1]; exact h1
    · intro j hj k hk
      rw [h3 j hj k hk]
      by_cases hjr : j ∈ rest
      · simp [hjr]
      · rw [if_neg hjr, writeAt_get hb1, hrow i hi]
        by_cases hji : j = i
        · subst hji
          rw [if_pos ⟨by omega, by omega⟩, if_pos (by simp)]
          congr 1; omega
        · rw [if_neg, if_neg (by simp [hji, hjr])]
          rintro ⟨h4, h5⟩
          apply hji
          rcases Nat.lt_trichotomy j i with h | h | h
          · have : (j + 1) * dim ≤ i * dim := Nat.mul_le_mul_right _ h
            rw [Nat.succ_mul] at this; omega
          · exact h
          · have : (i + 1) * dim ≤ j * dim := Nat.mul_le_mul_right _ h
            rw [Nat.succ_mul] at this; omega

/-- the entries of an accepted field -/
theorem makeField_cores {more : Bool} {patches : List Patch} {fieldDim : ℤ} {cn cd cg cc : Bool} {entries : List (Option (Core K))}
    {cores : List (Core K)} (h : makeField more patches fieldDim cn cd cg cc entries = some cores) :
    toCores more ((patches.headD default).paraDim) fieldDim entries = some cores ∧
      Mismatch.raiseMismatch2 0 patches (cores.map (·.attrs)) cn cd fieldDim cg cc 1 = some .ok ∧ cores ≠ [] := by
  unfold makeField at h
  split at h
  · simp at h
  · rename_i cs hcs
    split at h
    · rename_i x hx
      split at h
      · rename_i hr
        simp at h; subst h
        refine ⟨hcs, hr, ?_⟩
        rintro rfl
        simp [Mismatch.checkField] at hx
      · simp at h
    · simp at h

theorem makeField_intro {more : Bool} {patches : List Patch} {fieldDim : ℤ} {cn cd cg cc : Bool} {entries : List (Option (Core K))}
    {cores : List (Core K)} (h1 : toCores more ((patches.headD default).paraDim) fieldDim entries = some cores)
    (h2 : Mismatch.checkField (cores.map (·.attrs)) = some (some (cores.map (·.attrs))))
    (h3 : Mismatch.raiseMismatch2 0 patches (cores.map (·.attrs)) cn cd fieldDim cg cc 1 = some .ok) :
    makeField more patches fieldDim cn cd cg cc entries = some cores := by
  unfold makeField; rw [h1]; simp only; rw [h2]; simp only; rw [h3]

/-- the entry made of each given one -/
theorem toCores_get {more : Bool} {p d : ℤ} : ∀ {entries : List (Option (Core K))} {cores : List (Core K)},
    toCores more p d entries = some cores → cores.length = entries.length ∧
      ∀ i (hi : i < entries.length), ∃ c, cores[i]? = some c ∧
        (∀ e, entries[i] = some e → c = e) ∧ (entries[i] = none → ∃ a, nullLookup more p d = some a ∧ c = nullCore a)
  | [], cores, h => by
      simp [toCores] at h; subst h; simp
  | e :: es, cores, h => by
      unfold toCores at h
      rw [List.mapM_cons] at h
      obtain ⟨c, hc, h⟩ := Option.bind_eq_some_iff.mp h
      obtain ⟨cs, hcs, h⟩ := Option.bind_eq_some_iff.mp h
      simp [pure] at h; subst h
      obtain ⟨hl, hrec⟩ := toCores_get (entries := es) (cores := cs) hcs
      refine ⟨by simp [hl], ?_⟩
      intro i hi
      cases i with
      | zero =>
        refine ⟨c, rfl, ?_, ?_⟩
        · intro e' he'
          simp at he'; subst he'
          simpa [eq_comm] using hc
        · intro he'
          simp at he'; subst he'
          simp only [Option.map_eq_some_iff] at hc
          obtain ⟨a, ha, rfl⟩ := hc
          exact ⟨a, ha, rfl⟩
      | succ i =>
        obtain ⟨c', h1, h2, h3⟩ := hrec i (by simpa using hi)
        exact ⟨c', by simpa using h1, by simpa using h2, by simpa using h3⟩

/-- C136: a field accepted with the check of the dimensions, some of whose entries are left out: `evaluate` fills, whatever the order in which the threads execute the
steps and whatever the new array contains, every row; the row of patch `i` and query `j` is the value of the given spline, and zero where the field was left out. -/
theorem field_evaluate (more : Bool) (patches : List Patch) (fieldDim : ℕ) (cn cg cc : Bool) (entries : List (Option (Core K)))
    (cores : List (Core K)) (h : makeField more patches fieldDim cn true cg cc entries = some cores)
    (hfill : ∀ e ∈ entries, Spec.FillsDim e) (queries : List (List K)) (order : List ℕ)
    (horder : ∀ i, i ∈ order ↔ i < entries.length * queries.length) (buf : List K)
    (hbuf : buf.length = entries.length * queries.length * fieldDim) :
    ∃ out, evaluate cores queries order buf = some out ∧ out.length = entries.length * queries.length * fieldDim ∧
      ∀ i (hi : i < entries.length) j (hj : j < queries.length) k, k < fieldDim →
        out[(i * queries.length + j) * fieldDim + k]? = (Spec.fieldValue fieldDim entries[i] queries[j])[k]? := by
  obtain ⟨hto, hr, hne⟩ := makeField_cores h
  obtain ⟨hlen, hget⟩ := toCores_get hto
  obtain ⟨hpl, hfit⟩ := (Mismatch.raise_mismatch2_exact 0 patches _ cn true fieldDim cg cc 1 le_rfl (Or.inr rfl)).mp hr
  simp only [List.length_map] at hpl
  have hdim : ∀ i (hi : i < entries.length), ∀ c, cores[i]? = some c → c.attrs.dim = fieldDim := by
    intro i hi c hc
    have := ((hfit i (by omega)).1 rfl).2
    simp [List.getD_eq_getElem?_getD, hc] at this
    exact this
  have hval : ∀ i (hi : i < entries.length) q, ∃ c, cores[i]? = some c ∧ c.eval q = Spec.fieldValue fieldDim entries[i] q ∧
      (c.eval q).length = fieldDim := by
    intro i hi q
    obtain ⟨c, hc, h1, h2⟩ := hget i hi
    have hd := hdim i hi c hc
    refine ⟨c, hc, ?_⟩
    cases he : entries[i] with
    | some e =>
      have := h1 e he; subst this
      refine ⟨rfl, ?_⟩
      rw [hfill entries[i] (List.getElem_mem hi) _ he, hd]
    | none =>
      obtain ⟨a, -, rfl⟩ := h2 he
      have hd' : a.dim = fieldDim := hd
      simp [nullCore, Spec.fieldValue, hd']
  rcases cores with _ | ⟨c0, cs⟩
  · exact absurd rfl hne
  have hc0 : c0.attrs.dim = fieldDim := hdim 0 (by rw [← hlen]; simp) c0 rfl
  have hq : ∀ r, r < entries.length * queries.length → 0 < queries.length ∧ r / queries.length < entries.length ∧
      r % queries.length < queries.length := by
    intro r hr'
    have hpos : 0 < queries.length := by
      rcases Nat.eq_zero_or_pos queries.length with h0 | h0
      · rw [h0] at hr'; omega
      · exact h0
    exact ⟨hpos, (Nat.div_lt_iff_lt_mul hpos).mpr hr', Nat.mod_lt _ hpos⟩
  let row : ℕ → List K := fun r => Spec.fieldValue fieldDim (entries.getD (r / queries.length) none) (queries.getD (r % queries.length) [])
  have hrowv : ∀ r (hr' : r < entries.length * queries.length), ∃ c q, (c0 :: cs)[r / queries.length]? = some c ∧
      queries[r % queries.length]? = some q ∧ c.eval q = row r ∧ (row r).length = fieldDim := by
    intro r hr'
    obtain ⟨hpos, h1, h2⟩ := hq r hr'
    obtain ⟨c, hc, hv, hl⟩ := hval _ h1 queries[r % queries.length]
    refine ⟨c, queries[r % queries.length], hc, List.getElem?_eq_getElem h2, ?_, ?_⟩
    · rw [hv]; simp only [row]
      rw [List.getD_eq_getElem (l := entries) (d := none) h1, List.getD_eq_getElem (l := queries) (d := []) h2]
    · simp only [row]
      rw [List.getD_eq_getElem (l := entries) (d := none) h1, List.getD_eq_getElem (l := queries) (d := []) h2, ← hv]
      exact hl
  obtain ⟨out, e1, e2, e3⟩ := fold_rows (entries.length * queries.length) fieldDim row (evaluateStep (c0 :: cs) queries c0.attrs.dim)
    (fun r hr' => by obtain ⟨_, _, _, _, _, hl⟩ := hrowv r hr'; exact hl)
    (fun r hr' b => by
      obtain ⟨c, q, h1, h2, h3, -⟩ := hrowv r hr'
      unfold evaluateStep
      rw [h1, h2]
      simp only [h3, hc0]
      rw [Nat.div_add_mod']) order (fun i hi => (horder i).mp hi) buf hbuf
  refine ⟨out, e1, e2, ?_⟩
  intro i hi j hj k hk
  have hlt : i * queries.length + j < entries.length * queries.length := by
    have : (i + 1) * queries.length ≤ entries.length * queries.length := Nat.mul_le_mul_right _ hi
    rw [Nat.succ_mul] at this; omega
  rw [e3 _ hlt k hk, if_pos ((horder _).mpr hlt)]
  simp only [row]
  have hd1 : (i * queries.length + j) / queries.length = i := by
    rw [Nat.mul_comm, Nat.mul_add_div (by omega), Nat.div_eq_of_lt hj]; rfl
  have hd2 : (i * queries.length + j) % queries.length = j := by
    rw [Nat.mul_comm, Nat.mul_add_mod, Nat.mod_eq_of_lt hj]
  rw [hd1, hd2, List.getD_eq_getElem (l := entries) (d := none) hi, List.getD_eq_getElem (l := queries) (d := []) hj]

/-- a B-spline field entry for examples -/
def Spec.sample (dim : ℕ) : Core ℚ :=
  { attrs := ⟨"BSpline", 2, dim, [1, 1], [2, 2], false⟩, eval := fun q => List.replicate dim (q.getD 0 0 + 1), boundary := fun _ => ⟨"BSpline", 1, dim, [1], [2], false⟩ }

/-- two patches, the field is left out on the first one: the steps are executed backwards, into an array with garbage -/
example :
    (∃ cores, makeField true [⟨"BSpline", 2, 3, [1, 1], [2, 2], false⟩, ⟨"BSpline", 2, 3, [1, 1], [2, 2], false⟩] 1 true true true true
      [none, some (Spec.sample 1)] = some cores ∧
      evaluate cores [[0, 0], [1, 0]] [3, 2, 1, 0] [7, 7, 7, 7] = some [0, 0, 1, 2]) := by
  refine ⟨[nullCore ⟨"NullSpline", 2, 1, [], [], true⟩, Spec.sample 1],
    makeField_intro rfl (by decide +kernel) (by decide +kernel), by decide +kernel⟩

/-- C136 fails without the check of the dimensions (`check_compliance=False`): a given scalar spline decides the width of the array, the zeros of the left out patch have
the announced dimension 3 and are written beyond the end of the array (and, in another order, over the value of the next patch). -/
theorem field_unchecked_violates :
    let p : Patch := ⟨"BSpline", 2, 3, [1, 1], [2, 2], false⟩
    ∃ cores, makeField true [p, p] 3 false false false false [some (Spec.sample 1), none] = some cores ∧
      (∀ buf : List ℚ, buf.length = 2 → evaluate cores [[0, 0]] [0, 1] buf = none) ∧
      ∃ cores', makeField true [p, p, p, p] 3 false false false false [some (Spec.sample 1), none, some (Spec.sample 1), some (Spec.sample 1)] = some cores' ∧
        evaluate cores' [[0, 0]] [0, 2, 3, 1] [7, 7, 7, 7] = some [1, 0, 0, 0] := by
  refine ⟨[Spec.sample 1, nullCore ⟨"NullSpline", 2, 3, [], [], true⟩],
    makeField_intro rfl (by decide +kernel) (by decide +kernel), ?_,
    [Spec.sample 1, nullCore ⟨"NullSpline", 2, 3, [], [], true⟩, Spec.sample 1, Spec.sample 1],
    makeField_intro rfl (by decide +kernel) (by decide +kernel), by decide +kernel⟩
  intro buf hb
  match buf, hb with
  | [a, b], _ => rfl

/-! ### boundaries of fields -/

omit [Field K] in
theorem boundary_null_name {more : Bool} {c : Core K} {j : ℕ} {b : Patch} (hc : c.attrs.isNull = true) (h : boundaryOf more c j = some b) :
    b.name = "NullSpline" := by
  unfold boundaryOf at h
  rw [if_pos hc] at h
  exact (null_lookup_dims h).2.2.2.1

omit [Field K] in
theorem toPySplineList_null {bs : List Patch} {b : Patch} (hb : b ∈ bs) (hn : b.name = "NullSpline") : toPySplineList bs = .raised [] := by
  unfold toPySplineList
  rw [if_neg]
  intro h
  have := List.all_eq_true.mp h b hb
  rw [hn] at this
  simp [typeNames] at this

theorem mapM_mem {α β : Type} {f : α → Option β} : ∀ {l : List α} {r : List β}, l.mapM f = some r → ∀ x ∈ l, ∃ y ∈ r, f x = some y
  | [], r, _, x, hx => by simp at hx
  | a :: l, r, h, x, hx => by
      rw [List.mapM_cons] at h
      obtain ⟨c, hc, h⟩ := Option.bind_eq_some_iff.mp h
      obtain ⟨cs, hcs, h⟩ := Option.bind_eq_some_iff.mp h
      simp [pure] at h; subst h
      rcases List.mem_cons.mp hx with rfl | hx
      · exact ⟨c, by simp, hc⟩
      · obtain ⟨y, hy, e⟩ := mapM_mem hcs x hx
        exact ⟨y, by simp [hy], e⟩

/-- C136 fails for boundaries, in every case: a multipatch one of whose entries is a placeholder never has a sub-multipatch: either the placeholder of the boundary
is read from outside of the table, or a `KeyError` is raised because placeholders have no Python class. -/
theorem field_sub_multipatch_violates (more : Bool) (cores : List (Core K)) (hd : ∀ c ∈ cores, 1 ≤ c.attrs.paraDim)
    (hn : ∃ c ∈ cores, c.attrs.isNull = true) :
    subMultipatch more cores = .crashed ∨ subMultipatch more cores = .raised [] := by
  obtain ⟨c, hc, hnull⟩ := hn
  rcases cores with _ | ⟨c0, cs⟩
  · simp at hc
  unfold subMultipatch
  simp only
  split
  · left; rfl
  · right
    rename_i bs hbs
    have hmem : (c, 0) ∈ ((c0 :: cs).flatMap fun c => (List.range (c0.attrs.paraDim * 2)).map fun j => (c, j)) := by
      rw [List.mem_flatMap]
      refine ⟨c, hc, List.mem_map.mpr ⟨0, ?_, rfl⟩⟩
      have := hd c0 (by simp)
      simp; omega
    obtain ⟨b, hb, e⟩ := mapM_mem hbs _ hmem
    exact toPySplineList_null hb (boundary_null_name hnull e)

/-- the same for the multipatch of selected boundaries, as soon as one of them belongs to a placeholder -/
theorem field_boundary_multipatch_violates (more : Bool) (cores : List (Core K)) (ids : List ℕ)
    (hn : ∃ i ∈ ids, ∃ c, cores[i / ((cores.head?.map (·.attrs.paraDim)).getD 0 * 2)]? = some c ∧ c.attrs.isNull = true) :
    boundaryMultipatch more cores ids = .crashed ∨ boundaryMultipatch more cores ids = .raised [] := by
  obtain ⟨i, hi, c, hc, hnull⟩ := hn
  rcases cores with _ | ⟨c0, cs⟩
  · simp at hc
  simp only [List.head?_cons, Option.map_some, Option.getD_some] at hc
  unfold boundaryMultipatch
  simp only
  split
  · left; rfl
  · right
    rename_i bs hbs
    obtain ⟨b, hb, e⟩ := mapM_mem hbs i hi
    rw [hc] at e
    exact toPySplineList_null hb (boundary_null_name hnull e)

/-- C136, boundaries, for fields without placeholders: the sub-multipatch consists of all boundaries of all patches, patch by patch. -/
theorem field_sub_multipatch_partial (more : Bool) (c0 : Core K) (cs : List (Core K)) (hn : ∀ c ∈ c0 :: cs, c.attrs.isNull = false)
    (hname : ∀ c ∈ c0 :: cs, ∀ j, (c.boundary j).name ∈ typeNames) :
    subMultipatch more (c0 :: cs) =
      .returned ((c0 :: cs).flatMap fun c => (List.range (c0.attrs.paraDim * 2)).map fun j => c.boundary j) := by
  unfold subMultipatch
  simp only
  have hmap : ((c0 :: cs).flatMap fun c => (List.range (c0.attrs.paraDim * 2)).map fun j => (c, j)).mapM (fun x => boundaryOf more x.1 x.2)
      = some ((c0 :: cs).flatMap fun c => (List.range (c0.attrs.paraDim * 2)).map fun j => c.boundary j) := by
    have : ∀ l : List (Core K × ℕ), (∀ x ∈ l, x.1.attrs.isNull = false) →
        l.mapM (fun x => boundaryOf more x.1 x.2) = some (l.map fun x => x.1.boundary x.2) := by
      intro l
      induction l with
      | nil => intro _; rfl
      | cons x l ih =>
        intro hl
        rw [List.mapM_cons, ih (fun y hy => hl y (by simp [hy]))]
        simp [boundaryOf, hl x (by simp)]
    rw [this _ (by
      intro x hx
      obtain ⟨c, hc, hx⟩ := List.mem_flatMap.mp hx
      obtain ⟨j, -, rfl⟩ := List.mem_map.mp hx
      exact hn c hc)]
    rw [List.map_flatMap]
    simp [List.map_map, Function.comp_def]
  rw [hmap]
  simp only [toPySplineList]
  rw [if_pos]
  rw [List.all_eq_true]
  intro b hb
  obtain ⟨c, hc, hb⟩ := List.mem_flatMap.mp hb
  obtain ⟨j, -, rfl⟩ := List.mem_map.mp hb
  simpa using hname c hc j

/-- C136, selected boundaries, for selections without placeholders: boundary number `i * (2 * para_dim) + j` is boundary `j` of patch `i`. -/
theorem field_boundary_multipatch_partial (more : Bool) (c0 : Core K) (cs : List (Core K)) (faces : List (ℕ × ℕ))
    (hf : ∀ f ∈ faces, f.2 < c0.attrs.paraDim * 2 ∧ ∃ c, (c0 :: cs)[f.1]? = some c ∧ c.attrs.isNull = false ∧ (c.boundary f.2).name ∈ typeNames) :
    ∃ bs, boundaryMultipatch more (c0 :: cs) (faces.map fun f => f.1 * (c0.attrs.paraDim * 2) + f.2) = .returned bs ∧
      List.Forall₂ (fun f b => ∃ c, (c0 :: cs)[f.1]? = some c ∧ b = c.boundary f.2) faces bs := by
  have hmap : ∃ bs, (faces.map fun f => f.1 * (c0.attrs.paraDim * 2) + f.2).mapM
        (fun i => ((c0 :: cs)[i / (c0.attrs.paraDim * 2)]?).bind fun c => boundaryOf more c (i % (c0.attrs.paraDim * 2))) = some bs ∧
      (∀ b ∈ bs, b.name ∈ typeNames) ∧ List.Forall₂ (fun f b => ∃ c, (c0 :: cs)[f.1]? = some c ∧ b = c.boundary f.2) faces bs := by
    induction faces with
    | nil => exact ⟨[], rfl, by simp, .nil⟩
    | cons f faces ih =>
      obtain ⟨bs, e, hn, hF⟩ := ih fun g hg => hf g (by simp [hg])
      obtain ⟨hlt, c, hc, hnull, hname⟩ := hf f (by simp)
      refine ⟨c.boundary f.2 :: bs, ?_, ?_, .cons ⟨c, hc, rfl⟩ hF⟩
      · have h1 : (f.1 * (c0.attrs.paraDim * 2) + f.2) / (c0.attrs.paraDim * 2) = f.1 := by
          rw [Nat.mul_comm, Nat.mul_add_div (by omega), Nat.div_eq_of_lt hlt, Nat.add_zero]
        have h2 : (f.1 * (c0.attrs.paraDim * 2) + f.2) % (c0.attrs.paraDim * 2) = f.2 := by
          rw [Nat.mul_comm, Nat.mul_add_mod, Nat.mod_eq_of_lt hlt]
        rw [List.map_cons, List.mapM_cons, e, h1, h2, hc]
        simp [boundaryOf, hnull]
      · intro b hb
        rcases List.mem_cons.mp hb with rfl | hb
        · exact hname
        · exact hn b hb
  obtain ⟨bs, e, hn, hF⟩ := hmap
  refine ⟨bs, ?_, hF⟩
  unfold boundaryMultipatch
  simp only [e, toPySplineList]
  rw [if_pos (List.all_eq_true.mpr fun b hb => by simpa using hn b hb)]

/-- the boundaries 3 of the first and 0 of the third patch -/
example : ∃ bs, boundaryMultipatch true [Spec.sample 1, Spec.sample 1, Spec.sample 1] [3, 8] = .returned bs ∧ bs.length = 2 :=
  let ⟨bs, h, hF⟩ := field_boundary_multipatch_partial true (Spec.sample 1) [Spec.sample 1, Spec.sample 1] [(0, 3), (2, 0)] (by decide)
  ⟨bs, h, hF.length_eq.symm⟩

example : subMultipatch true [Spec.sample 1, Spec.sample 1] = .returned (List.replicate 8 ⟨"BSpline", 1, 1, [1], [2], false⟩) ∧
    subMultipatch true [Spec.sample 1, nullCore ⟨"NullSpline", 2, 1, [], [], true⟩] = .raised [] ∧
    subMultipatch true [(nullCore ⟨"NullSpline", 1, 1, [], [], true⟩ : Core ℚ)] = .crashed ∧
    boundaryMultipatch true [Spec.sample 1, nullCore ⟨"NullSpline", 2, 1, [], [], true⟩] [0, 5] = .raised [] := by
  refine ⟨?_, ?_, ?_, ?_⟩ <;> decide

end Splinepy.Dispatch
