import Verif.Model.Pointers
import Mathlib.Algebra.Order.Field.Rat
import Mathlib.Tactic.FieldSimp
import Mathlib.Tactic.Ring

/-!
C23: control points and weights of rational splines stay in sync with the homogeneous core. C25: negative row ids.
-/
set_option linter.unusedSectionVars false

namespace Splinepy.Pointers

variable {K : Type} [Field K]

/-! ### Specification: a record of control points and weights -/

/-- what a user sees: control points, and weights -/
structure Spec.Record (K : Type) where
  cps : List (List K)
  ws : List K

/-- the row a (possibly negative) id refers to -/
def Spec.row (n : ℕ) (id : Int) : ℕ := (if id < 0 then id + n else id).toNat

/-- the effect of the calls on the record: the listed rows get the given values, one after the other -/
def Spec.step (r : Spec.Record K) : Op K → Spec.Record K
  | .setRow id v => { r with cps := r.cps.set (Spec.row r.cps.length id) v }
  | .setRows ids vs => { r with cps := (ids.zip vs).foldl (fun l iv => l.set (Spec.row r.cps.length iv.1) iv.2) r.cps }
  | .syncRows ids vs => { r with cps := ids.foldl (fun l id => l.set (Spec.row r.cps.length id) (vs.getD (Spec.row r.cps.length id) [])) r.cps }
  | .sync vs => { r with cps := vs }
  | .setWeight id v => { r with ws := r.ws.set (Spec.row r.ws.length id) v }
  | .setWeights ids vs => { r with ws := (ids.zip vs).foldl (fun l iv => l.set (Spec.row r.ws.length iv.1) iv.2) r.ws }
  | .syncWeightRows ids vs => { r with ws := ids.foldl (fun l id => l.set (Spec.row r.ws.length id) (vs.getD (Spec.row r.ws.length id) 0)) r.ws }
  | .syncWeights vs => { r with ws := vs }

/-- no zero weight is written -/
def Spec.NonzeroWeights : Op K → Prop
  | .setWeight _ v => v ≠ 0
  | .setWeights _ vs => ∀ v ∈ vs, v ≠ 0
  | .syncWeightRows _ vs => ∀ v ∈ vs, v ≠ 0
  | .syncWeights vs => ∀ v ∈ vs, v ≠ 0
  | _ => True

/-- what is read back from a core: coordinates divided by the weights -/
def Spec.read (c : Core K) : Spec.Record K :=
  match c.weights with
  | none => ⟨c.coords, []⟩
  | some w => ⟨List.zipWith (fun row wi => row.map (· / wi)) c.coords w, w⟩

/-- a core that represents a record -/
def Spec.core (r : Spec.Record K) : Core K := ⟨List.zipWith (fun row wi => row.map (· * wi)) r.cps r.ws, some r.ws⟩

/-! ### proofs -/

theorem wrapId_some {i : Int} {n k : ℕ} (h : wrapId i n = some k) : k = Spec.row n i ∧ k < n := by
  unfold wrapId at h
  unfold Spec.row
  generalize (if i < 0 then i + n else i) = j at h ⊢
  simp only at h
  split_ifs at h with hr
  simp only [Option.some.injEq] at h
  exact ⟨h.symm, by omega⟩

/-- the invariant -/
def Represents (c : Core K) (r : Spec.Record K) : Prop := c = Spec.core r ∧ r.cps.length = r.ws.length ∧ ∀ w ∈ r.ws, w ≠ 0

theorem core_length {r : Spec.Record K} (h : r.cps.length = r.ws.length) : (Spec.core r).coords.length = r.cps.length := by
  unfold Spec.core; rw [List.length_zipWith]; omega

theorem zipWith_set_left {α β γ : Type} (f : α → β → γ) (l : List α) (m : List β) (i : ℕ) (a : α) (b : β) (hb : m[i]? = some b) :
    (List.zipWith f l m).set i (f a b) = List.zipWith f (l.set i a) m := by
  apply List.ext_getElem?
  intro k
  rw [List.getElem?_zipWith, List.getElem?_set, List.getElem?_set, List.getElem?_zipWith, List.length_zipWith]
  by_cases hk : i = k
  · subst hk
    have hm : i < m.length := by
      by_contra hge; rw [List.getElem?_eq_none (by omega)] at hb; simp at hb
    simp only [if_true]
    by_cases hl : i < l.length
    · rw [if_pos (by omega), if_pos hl, hb]
    · rw [if_neg (by omega), if_neg hl]
  · simp only [if_neg hk]

theorem zipWith_set_right {α β γ : Type} (f : α → β → γ) (l : List α) (m : List β) (i : ℕ) (a : α) (b : β) (ha : l[i]? = some a) :
    (List.zipWith f l m).set i (f a b) = List.zipWith f l (m.set i b) := by
  apply List.ext_getElem?
  intro k
  rw [List.getElem?_zipWith, List.getElem?_set, List.getElem?_set, List.getElem?_zipWith, List.length_zipWith]
  by_cases hk : i = k
  · subst hk
    have hm : i < l.length := by
      by_contra hge; rw [List.getElem?_eq_none (by omega)] at ha; simp at ha
    simp only [if_true]
    by_cases hl : i < m.length
    · rw [if_pos (by omega), if_pos hl, ha]
    · rw [if_neg (by omega), if_neg hl, ha]
  · simp only [if_neg hk]

theorem setRow_represents {c : Core K} {r : Spec.Record K} (h : Represents c r) {id : Int} {v : List K} {c' : Core K} (hc : setRow c id v = some c') :
    Represents c' { r with cps := r.cps.set (Spec.row r.cps.length id) v } := by
  obtain ⟨rfl, hl, hw⟩ := h
  unfold setRow at hc
  rw [core_length hl] at hc
  cases hi : wrapId id r.cps.length with
  | none => rw [hi] at hc; simp at hc
  | some i =>
    rw [hi] at hc
    obtain ⟨hi1, hi2⟩ := wrapId_some hi
    simp only [Spec.core, Option.bind_some, Option.map_eq_some_iff] at hc
    obtain ⟨wi, hwi, rfl⟩ := hc
    rw [← hi1]
    refine ⟨?_, by simpa using hl, hw⟩
    unfold Spec.core
    congr 1
    exact zipWith_set_left (fun (row : List K) wi => row.map (· * wi)) r.cps r.ws i v wi hwi

theorem setWeight_represents {c : Core K} {r : Spec.Record K} (h : Represents c r) {id : Int} {v : K} (hv : v ≠ 0) {c' : Core K}
    (hc : setWeight c id v = some c') : Represents c' { r with ws := r.ws.set (Spec.row r.ws.length id) v } := by
  obtain ⟨rfl, hl, hw⟩ := h
  unfold setWeight at hc
  simp only [Spec.core] at hc
  cases hi : wrapId id r.ws.length with
  | none => rw [hi] at hc; simp at hc
  | some i =>
    rw [hi] at hc
    obtain ⟨hi1, hi2⟩ := wrapId_some hi
    simp only [Option.bind_some, Option.bind_eq_some_iff, Option.map_eq_some_iff] at hc
    obtain ⟨wi, hwi, row, hrow, rfl⟩ := hc
    rw [← hi1]
    refine ⟨?_, by simpa using hl, ?_⟩
    · unfold Spec.core
      congr 1
      have hwi0 : wi ≠ 0 := hw wi (List.mem_of_getElem? hwi)
      obtain ⟨row0, hrow0⟩ : ∃ row0, r.cps[i]? = some row0 := ⟨r.cps[i]'(by omega), List.getElem?_eq_getElem _⟩
      have : row = row0.map (· * wi) := by
        rw [List.getElem?_zipWith, hrow0, hwi] at hrow
        simpa using hrow.symm
      have e : row.map (· * (v / wi)) = row0.map (· * v) := by
        rw [this, List.map_map]
        apply List.map_congr_left
        intro x _
        simp only [Function.comp_apply]
        field_simp
      rw [e]
      exact zipWith_set_right (fun (row : List K) wi => row.map (· * wi)) r.cps r.ws i row0 v hrow0
    · intro w hwm
      rcases List.mem_or_eq_of_mem_set hwm with h1 | h1
      · exact hw w h1
      · rw [h1]; exact hv

theorem setRows_represents {c : Core K} {r : Spec.Record K} (h : Represents c r) (l : List (Int × List K)) {c' : Core K}
    (hc : l.foldlM (fun c iv => setRow c iv.1 iv.2) c = some c') :
    Represents c' { r with cps := l.foldl (fun l iv => l.set (Spec.row r.cps.length iv.1) iv.2) r.cps } := by
  induction l generalizing c r with
  | nil => simp at hc; subst hc; exact h
  | cons iv l ih =>
    rw [List.foldlM_cons] at hc
    cases h1 : setRow c iv.1 iv.2 with
    | none => rw [h1] at hc; simp at hc
    | some c1 =>
      rw [h1] at hc
      have := ih (setRow_represents h h1) hc
      simpa using this

theorem syncRows_represents {c : Core K} {r : Spec.Record K} (h : Represents c r) (ids : List Int) (values : List (List K)) {c' : Core K}
    (hc : ids.foldlM (fun c id => (wrapId id c.coords.length).bind (fun i => (values[i]?).bind (fun v => setRow c id v))) c = some c') :
    Represents c' { r with cps := ids.foldl (fun l id => l.set (Spec.row r.cps.length id) (values.getD (Spec.row r.cps.length id) [])) r.cps } := by
  induction ids generalizing c r with
  | nil => simp at hc; subst hc; exact h
  | cons id ids ih =>
    rw [List.foldlM_cons] at hc
    have hlen : c.coords.length = r.cps.length := by rw [h.1]; exact core_length h.2.1
    rw [hlen] at hc
    cases hi : wrapId id r.cps.length with
    | none => rw [hi] at hc; simp at hc
    | some i =>
      rw [hi] at hc
      obtain ⟨hi1, _⟩ := wrapId_some hi
      cases hv : values[i]? with
      | none => simp [hv] at hc
      | some v =>
        simp only [hv, Option.bind_some] at hc
        cases h1 : setRow c id v with
        | none => rw [h1] at hc; simp at hc
        | some c1 =>
          rw [h1] at hc
          have := ih (setRow_represents h h1) hc
          have e : values.getD (Spec.row r.cps.length id) [] = v := by rw [← hi1, List.getD_eq_getElem?_getD, hv]; rfl
          rw [List.foldl_cons, e]
          simpa using this

theorem setWeights_represents {c : Core K} {r : Spec.Record K} (h : Represents c r) (l : List (Int × K)) (hl : ∀ p ∈ l, p.2 ≠ 0) {c' : Core K}
    (hc : l.foldlM (fun c iv => setWeight c iv.1 iv.2) c = some c') :
    Represents c' { r with ws := l.foldl (fun l iv => l.set (Spec.row r.ws.length iv.1) iv.2) r.ws } := by
  induction l generalizing c r with
  | nil => simp at hc; subst hc; exact h
  | cons iv l ih =>
    rw [List.foldlM_cons] at hc
    cases h1 : setWeight c iv.1 iv.2 with
    | none => rw [h1] at hc; simp at hc
    | some c1 =>
      rw [h1] at hc
      have := ih (setWeight_represents h (hl iv (by simp)) h1) (fun p hp => hl p (List.mem_cons_of_mem _ hp)) hc
      simpa using this

theorem syncWeightRows_represents {c : Core K} {r : Spec.Record K} (h : Represents c r) (ids : List Int) (values : List K) (hv0 : ∀ v ∈ values, v ≠ 0)
    {c' : Core K}
    (hc : ids.foldlM (fun c id => (if id < 0 then none else values[id.toNat]?).bind (fun v => setWeight c id v)) c = some c') :
    Represents c' { r with ws := ids.foldl (fun l id => l.set (Spec.row r.ws.length id) (values.getD (Spec.row r.ws.length id) 0)) r.ws } := by
  induction ids generalizing c r with
  | nil => simp at hc; subst hc; exact h
  | cons id ids ih =>
    rw [List.foldlM_cons] at hc
    by_cases hneg : id < 0
    · simp [hneg] at hc
    · rw [if_neg hneg] at hc
      have hrow : Spec.row r.ws.length id = id.toNat := by unfold Spec.row; rw [if_neg hneg]
      cases hv : values[id.toNat]? with
      | none => simp [hv] at hc
      | some v =>
        simp only [hv, Option.bind_some] at hc
        cases h1 : setWeight c id v with
        | none => rw [h1] at hc; simp at hc
        | some c1 =>
          rw [h1] at hc
          have := ih (setWeight_represents h (hv0 v (List.mem_of_getElem? hv)) h1) hc
          have e : values.getD (Spec.row r.ws.length id) 0 = v := by rw [hrow, List.getD_eq_getElem?_getD, hv]; rfl
          rw [List.foldl_cons, e]
          simpa using this

theorem foldl_set_range {α : Type} (l vs : List α) (d : α) (hl : l.length = vs.length) :
    (List.range l.length).foldl (fun a i => a.set i (vs.getD i d)) l = vs := by
  have : ∀ n ≤ l.length, (List.range n).foldl (fun a i => a.set i (vs.getD i d)) l = vs.take n ++ l.drop n := by
    intro n
    induction n with
    | zero => simp
    | succ n ih =>
      intro hn
      rw [List.range_succ, List.foldl_append, ih (by omega), List.foldl_cons, List.foldl_nil]
      apply List.ext_getElem?
      intro k
      rw [List.getElem?_set]
      by_cases hk : n = k
      · subst hk
        rw [if_pos rfl, if_pos (by simp; omega)]
        rw [List.getElem?_append_left (by simp; omega), List.getElem?_take, if_pos (by omega), List.getD_eq_getElem?_getD,
          List.getElem?_eq_getElem (by omega)]; rfl
      · rw [if_neg hk]
        by_cases hlt : k < n
        · rw [List.getElem?_append_left (by simp; omega), List.getElem?_append_left (by simp; omega), List.getElem?_take, List.getElem?_take,
            if_pos hlt, if_pos (by omega)]
        · rw [List.getElem?_append_right (by simp; omega), List.getElem?_append_right (by simp; omega), List.getElem?_drop, List.getElem?_drop]
          congr 1
          simp only [List.length_take]
          omega
  have h := this l.length (le_refl _)
  rw [h, List.drop_length, List.append_nil, hl, List.take_length]

theorem step_represents {c : Core K} {r : Spec.Record K} (h : Represents c r) (op : Op K) (hnz : Spec.NonzeroWeights op) {c' : Core K}
    (hc : step c op = some c') : Represents c' (Spec.step r op) := by
  have hlen : c.coords.length = r.cps.length := by rw [h.1]; exact core_length h.2.1
  have hws : c.weights = some r.ws := by rw [h.1]; rfl
  cases op with
  | setRow id v => exact setRow_represents h hc
  | setRows ids vs =>
    simp only [step, setRows] at hc
    split at hc
    · simp at hc
    · exact setRows_represents h _ hc
  | syncRows ids vs =>
    simp only [step, syncRows] at hc
    split at hc
    · simp at hc
    · exact syncRows_represents h ids vs hc
  | sync vs =>
    simp only [step, sync, hws] at hc
    split at hc
    · simp at hc
    · rename_i hl
      rw [hlen] at hl
      simp only [Option.some.injEq] at hc
      subst hc
      have hl2 : r.cps.length = vs.length := by simpa using hl
      refine ⟨?_, by simp only [Spec.step]; rw [← hl2, h.2.1], h.2.2⟩
      rfl
  | setWeight id v => exact setWeight_represents h hnz hc
  | setWeights ids vs =>
    simp only [step, setWeights] at hc
    split at hc
    · simp at hc
    · exact setWeights_represents h _ (fun p hp => hnz _ (List.of_mem_zip hp).2) hc
  | syncWeightRows ids vs =>
    simp only [step, syncWeightRows, hws] at hc
    split at hc
    · simp at hc
    · exact syncWeightRows_represents h ids vs hnz hc
  | syncWeights vs =>
    simp only [step, syncWeights, hws] at hc
    split at hc
    · simp at hc
    · rename_i hl
      have hl2 : r.ws.length = vs.length := by simpa using hl
      have hconv : (List.range r.ws.length).foldlM (fun c (i : ℕ) => (vs[i]?).bind (fun v => setWeight c (i : Int) v)) c
          = ((List.range r.ws.length).map (fun (i : ℕ) => (i : Int))).foldlM (fun c id => (if id < 0 then none else vs[id.toNat]?).bind (fun v => setWeight c id v)) c := by
        rw [List.foldlM_map]
        congr 1
      rw [hconv] at hc
      have := syncWeightRows_represents h _ vs hnz hc
      have e : ((List.range r.ws.length).map (fun (i : ℕ) => (i : Int))).foldl (fun l id => l.set (Spec.row r.ws.length id) (vs.getD (Spec.row r.ws.length id) 0)) r.ws = vs := by
        rw [List.foldl_map]
        have hrow : ∀ i : ℕ, Spec.row r.ws.length (i : Int) = i := fun i => by unfold Spec.row; rw [if_neg (by omega)]; simp
        simp only [hrow]
        exact foldl_set_range r.ws vs 0 hl2
      rw [e] at this
      exact this

theorem read_core {r : Spec.Record K} (hl : r.cps.length = r.ws.length) (hw : ∀ w ∈ r.ws, w ≠ 0) : Spec.read (Spec.core r) = r := by
  obtain ⟨cps, ws⟩ := r
  change cps.length = ws.length at hl
  change ∀ w ∈ ws, w ≠ 0 at hw
  change (⟨List.zipWith (fun (row : List K) wi => row.map (· / wi)) (List.zipWith (fun (row : List K) wi => row.map (· * wi)) cps ws) ws, ws⟩ : Spec.Record K) = ⟨cps, ws⟩
  congr 1
  apply List.ext_getElem?
  intro k
  rw [List.getElem?_zipWith, List.getElem?_zipWith]
  by_cases hk : k < cps.length
  · rw [List.getElem?_eq_getElem hk, List.getElem?_eq_getElem (by omega : k < ws.length)]
    have h0 := hw _ (List.getElem_mem (by omega : k < ws.length))
    simp only [List.map_map, Option.some.injEq]
    conv_rhs => rw [← List.map_id cps[k]]
    apply List.map_congr_left
    intro x _
    simp only [Function.comp_apply, id_eq]
    field_simp
  · rw [List.getElem?_eq_none (by omega), List.getElem?_eq_none (by omega : ws.length ≤ k)]

/-- C23: after every sequence of writes to rows, several rows or all rows, of control points and of weights, with nonzero weights, that ends without an error, the
control points and weights read back are those of a plain record of control points and weights to which the same writes were applied. In particular,
changing weights never moves a control point, and vice versa. -/
theorem writes_like_record (r : Spec.Record K) (hl : r.cps.length = r.ws.length) (hw : ∀ w ∈ r.ws, w ≠ 0) (ops : List (Op K))
    (hnz : ∀ op ∈ ops, Spec.NonzeroWeights op) (c : Core K) (hc : run (Spec.core r) ops = some c) :
    Spec.read c = ops.foldl Spec.step r := by
  have key : ∀ (c0 : Core K) (r : Spec.Record K), Represents c0 r → (∀ op ∈ ops, Spec.NonzeroWeights op) → run c0 ops = some c →
      Represents c (ops.foldl Spec.step r) := by
    clear hnz hc hl hw r
    induction ops with
    | nil => intro c0 r h _ hc; simp [run] at hc; subst hc; exact h
    | cons op ops ih =>
      intro c0 r h hnz hc
      unfold run at hc
      rw [List.foldlM_cons] at hc
      cases h1 : step c0 op with
      | none => rw [h1] at hc; simp at hc
      | some c1 =>
        rw [h1] at hc
        exact ih c1 _ (step_represents h op (hnz op (by simp)) h1) (fun o ho => hnz o (List.mem_cons_of_mem _ ho)) hc
  obtain ⟨h1, h2, h3⟩ := key _ _ ⟨rfl, hl, hw⟩ hnz hc
  rw [h1]
  exact read_core h2 h3

/-- non-vacuity: weights and control points are written in turns, also with negative ids -/
example : ∃ c, run (K := ℚ) (Spec.core ⟨[[1, 2], [3, 4]], [1, 2]⟩) [.setWeight 0 3, .setRow (-1) [5, 6], .syncWeights [2, 4], .setRows [1, 0] [[7, 8], [9, 10]]] = some c
    ∧ (Spec.read c).cps = [[9, 10], [7, 8]] ∧ (Spec.read c).ws = [2, 4] := by
  refine ⟨⟨[[18, 20], [28, 32]], some [2, 4]⟩, by decide +kernel, by decide +kernel, by decide +kernel⟩

/-- For splines without weights, the coordinates are the control points. -/
theorem polynomial_writes (cps : List (List K)) (id : Int) (v : List K) (vs : List (List K)) (c : Core K) :
    (setRow ⟨cps, none⟩ id v = some c → c = ⟨cps.set (Spec.row cps.length id) v, none⟩) ∧ (sync ⟨cps, none⟩ vs = some c → c = ⟨vs, none⟩) := by
  constructor
  · intro h
    unfold setRow at h
    simp only at h
    cases hi : wrapId id cps.length with
    | none => rw [hi] at h; simp at h
    | some i =>
      rw [hi] at h
      obtain ⟨hi1, _⟩ := wrapId_some hi
      simp at h
      rw [← h, hi1]
  · intro h
    unfold sync at h
    split at h
    · simp at h
    · simpa using h.symm

/-- C23 fails for a zero weight: the control point is lost, also for all later weights. -/
theorem zero_weight_violates :
    ∃ (r : Spec.Record ℚ) (ops : List (Op ℚ)) (c : Core ℚ), r.cps.length = r.ws.length ∧ (∀ w ∈ r.ws, w ≠ 0) ∧ run (Spec.core r) ops = some c ∧
      (ops.foldl Spec.step r).ws = [1] ∧ (Spec.read c).ws = [1] ∧ (ops.foldl Spec.step r).cps = [[3]] ∧ (Spec.read c).cps ≠ [[3]] :=
  ⟨⟨[[3]], [1]⟩, [.setWeight 0 0, .setWeight 0 1], ⟨[[0]], some [1]⟩, by decide, by decide +kernel, by decide +kernel, by decide +kernel, by decide +kernel,
    by decide +kernel, by decide +kernel⟩

/-! ### C25 -/

theorem wrapId_row (n : ℕ) (id : Int) (h : -(n : Int) ≤ id ∧ id < n) : wrapId id n = some (Spec.row n id) ∧ wrapId ((Spec.row n id : ℕ) : Int) n = some (Spec.row n id) := by
  have key : ∀ j : Int, 0 ≤ j → j < n → wrapId j n = some j.toNat := by
    intro j h0 h1
    unfold wrapId
    have e : (if j < 0 then j + (n : Int) else j) = j := if_neg (by omega)
    rw [e]
    exact if_pos ⟨h0, h1⟩
  have hr : 0 ≤ (if id < 0 then id + n else id) ∧ (if id < 0 then id + n else id) < n := by split <;> omega
  constructor
  · unfold wrapId Spec.row
    exact if_pos hr
  · have h2 := key ((Spec.row n id : ℕ) : Int) (by omega) (by unfold Spec.row; omega)
    rw [h2, Int.toNat_natCast]

theorem setRow_wrap (c : Core K) (n : ℕ) (hn : c.coords.length = n) (id : Int) (h : -(n : Int) ≤ id ∧ id < n) (v : List K) :
    setRow c id v = setRow c (Spec.row n id : ℕ) v := by
  unfold setRow
  rw [hn, (wrapId_row n id h).1, (wrapId_row n id h).2]

theorem setWeight_wrap (c : Core K) (w : List K) (hw : c.weights = some w) (n : ℕ) (hn : w.length = n) (id : Int) (h : -(n : Int) ≤ id ∧ id < n) (v : K) :
    setWeight c id v = setWeight c (Spec.row n id : ℕ) v := by
  unfold setWeight
  rw [hw]
  simp only [hn, (wrapId_row n id h).1, (wrapId_row n id h).2]

theorem setRow_length {c c' : Core K} {id : Int} {v : List K} (h : setRow c id v = some c') : c'.coords.length = c.coords.length ∧ c'.weights = c.weights := by
  unfold setRow at h
  rw [Option.bind_eq_some_iff] at h
  obtain ⟨i, _, h⟩ := h
  cases hw : c.weights with
  | none => rw [hw] at h; simp at h; subst h; simp
  | some w =>
    rw [hw] at h
    simp only [Option.map_eq_some_iff] at h
    obtain ⟨wi, _, rfl⟩ := h
    simp

theorem setWeight_length {c c' : Core K} {id : Int} {v : K} {w : List K} (hw : c.weights = some w) (h : setWeight c id v = some c') :
    ∃ w', c'.weights = some w' ∧ w'.length = w.length := by
  unfold setWeight at h
  rw [hw] at h
  simp only [Option.bind_eq_some_iff, Option.map_eq_some_iff] at h
  obtain ⟨i, _, wi, _, row, _, rfl⟩ := h
  exact ⟨_, rfl, by simp⟩

/-- C25: for ids from `-n` to `n - 1`, all calls that write control point rows, and `set_row`, `set_rows` of weights, do the same as with the ids counted from the
start. -/
theorem negative_ids_partial (c : Core K) (ids : List Int) (h : ∀ id ∈ ids, -(c.coords.length : Int) ≤ id ∧ id < c.coords.length) :
    (∀ vs : List (List K), setRows c ids vs = setRows c (ids.map (fun id => ((Spec.row c.coords.length id : ℕ) : Int))) vs ∧
      syncRows c ids vs = syncRows c (ids.map (fun id => ((Spec.row c.coords.length id : ℕ) : Int))) vs) ∧
    (∀ (w : List K) (vs : List K), c.weights = some w → w.length = c.coords.length →
      setWeights c ids vs = setWeights c (ids.map (fun id => ((Spec.row c.coords.length id : ℕ) : Int))) vs) := by
  refine ⟨fun vs => ⟨?_, ?_⟩, ?_⟩
  · unfold setRows
    rw [List.length_map]
    split
    · rfl
    · rename_i hl
      generalize hn : c.coords.length = n at *
      clear hl
      induction ids generalizing c vs with
      | nil => rfl
      | cons id ids ih =>
        cases vs with
        | nil => rfl
        | cons v vs =>
          rw [List.map_cons, List.zip_cons_cons, List.zip_cons_cons, List.foldlM_cons, List.foldlM_cons, ← setRow_wrap c n hn id (h id (by simp)) v]
          cases h1 : setRow c id v with
          | none => rfl
          | some c1 => exact ih c1 vs (by rw [(setRow_length h1).1, hn]) (fun i hi => h i (List.mem_cons_of_mem _ hi))
  · unfold syncRows
    split
    · rfl
    · rename_i hl
      clear hl
      generalize hn : c.coords.length = n at *
      induction ids generalizing c with
      | nil => rfl
      | cons id ids ih =>
        rw [List.map_cons, List.foldlM_cons, List.foldlM_cons, hn, (wrapId_row n id (h id (by simp))).1, (wrapId_row n id (h id (by simp))).2]
        simp only [Option.bind_some]
        cases hv : vs[Spec.row n id]? with
        | none => rfl
        | some v =>
          simp only [Option.bind_some]
          rw [← setRow_wrap c n hn id (h id (by simp)) v]
          cases h1 : setRow c id v with
          | none => rfl
          | some c1 => exact ih c1 (by rw [(setRow_length h1).1, hn]) (fun i hi => h i (List.mem_cons_of_mem _ hi))
  · intro w vs hw hwl
    unfold setWeights
    rw [List.length_map]
    split
    · rfl
    · rename_i hl
      generalize hn : c.coords.length = n at *
      clear hl hn
      induction ids generalizing c vs w with
      | nil => rfl
      | cons id ids ih =>
        cases vs with
        | nil => rfl
        | cons v vs =>
          rw [List.map_cons, List.zip_cons_cons, List.zip_cons_cons, List.foldlM_cons, List.foldlM_cons, ← setWeight_wrap c w hw n hwl id (h id (by simp)) v]
          cases h1 : setWeight c id v with
          | none => rfl
          | some c1 =>
            obtain ⟨w', hw', hwl'⟩ := setWeight_length hw h1
            exact ih c1 w' vs hw' (fun i hi => h i (List.mem_cons_of_mem _ hi)) (by rw [hwl', hwl])

/-- non-vacuity -/
example : setRows (K := ℚ) ⟨[[1], [2], [3]], some [1, 2, 4]⟩ [-1, 0] [[7], [8]] = some ⟨[[8], [2], [28]], some [1, 2, 4]⟩ := by decide +kernel

/-- C25 fails for `sync_rows` of weights: with a negative id the new value is read in front of the array, while the id counted from the start works. -/
theorem negative_ids_weights_violates :
    ∃ (c : Core ℚ) (vs : List ℚ), syncWeightRows c [-1] vs = none ∧ syncWeightRows c [1] vs ≠ none :=
  ⟨⟨[[1], [2]], some [1, 1]⟩, [1, 2], by decide +kernel, by decide +kernel⟩

end Splinepy.Pointers
