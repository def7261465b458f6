import Verif.Lemma.Queries
import Mathlib.Tactic.IntervalCases

/-!
C121: batched queries return, for every query (and order), the values of that query, whatever the memory layout of the arrays.

Specification (in `Verif/Lemma/Queries.lean`): `Spec.Row a i r` (row `i` of an array as Python sees it is `r`), `Spec.Returns call arrays`
(under every schedule of the threads the returned arrays have these shapes and entries, and nothing outside of them is written),
`Spec.Safe` (numbers of queries and threads for which the threads stay inside of the arrays; C09 shows that others violate it).
-/
namespace Splinepy.Queries
open Splinepy.Threads Splinepy.Spec Spec

variable {K : Type*}

theorem num_some {l : List K} {k n : ℕ} (hl : l.length = n) (hk : k < n) : ((l[k]?).map Value.num).isSome := by
  rw [List.getElem?_eq_getElem (by omega)]; rfl

theorem mem_put_num {array base n : ℕ} {vals : List K} (hl : vals.length = n) {w : Cell × Value K} :
    w ∈ put array base (vals.map .num) ↔
      ∃ k x, k < n ∧ (vals[k]?).map Value.num = some x ∧ w = ((array, base + k), x) := by
  rw [mem_put]
  constructor
  · rintro ⟨k, x, h, rfl⟩
    rw [List.getElem?_map] at h
    refine ⟨k, x, ?_, h, rfl⟩
    by_contra hk
    rw [List.getElem?_eq_none (by omega)] at h
    cases h
  · rintro ⟨k, x, -, h, rfl⟩
    exact ⟨k, x, by rw [List.getElem?_map]; exact h, rfl⟩

theorem mem_put_id {array base n : ℕ} {vals : List ℤ} (hl : vals.length = n) {w : Cell × Value K} :
    w ∈ put array base (vals.map (.id : ℤ → Value K)) ↔
      ∃ k x, k < n ∧ (vals[k]?).map (Value.id : ℤ → Value K) = some x ∧ w = ((array, base + k), x) := by
  rw [mem_put]
  constructor
  · rintro ⟨k, x, h, rfl⟩
    rw [List.getElem?_map] at h
    refine ⟨k, x, ?_, h, rfl⟩
    by_contra hk
    rw [List.getElem?_eq_none (by omega)] at h
    cases h
  · rintro ⟨k, x, -, h, rfl⟩
    exact ⟨k, x, by rw [List.getElem?_map]; exact h, rfl⟩

/-- One array of results, one block per query. -/
theorem returns_one {hw n pd : ℕ} {nthreads : ℤ} (hsafe : Safe hw n nthreads) {q : NdArray K} (hq : q.shape = [n, pd])
    {body : ℕ → Option (List (Cell × Value K))} {ws : ℕ → List (Cell × Value K)} (hbody : ∀ i < n, body i = some (ws i))
    (rest : List ℕ) (B : ℕ → ℕ → Option (Value K)) (hB : ∀ i < n, ∀ k < rest.prod, (B i k).isSome)
    (hws : ∀ i < n, ∀ w, w ∈ ws i ↔ ∃ k x, k < rest.prod ∧ B i k = some x ∧ w = ((0, i * rest.prod + k), x))
    (entry : List ℕ → Option (Value K)) (he : ∀ i < n, ∀ idx, InShape rest idx → entry (i :: idx) = B i (offset rest idx)) :
    Returns ((checkRows q.shape pd).bind (fun n => (fill hw n nthreads body).map (fun ts => (⟨[n :: rest], ts⟩ : Call K))))
      [(n :: rest, entry)] := by
  obtain ⟨ts, ht, hm⟩ := fill_spec hsafe body ws hbody
  have h1 : checkRows q.shape pd = some n := by rw [hq]; simp [checkRows]
  rw [h1, Option.bind_some, ht, Option.map_some]
  refine returns_of_blocks hm [rest] (fun _ => B) ?_ ?_ _ rfl ?_
  · intro o r hr i hi k hk
    cases o with
    | zero => rw [List.getElem?_cons_zero, Option.some_inj] at hr; subst hr; exact hB i hi k hk
    | succ o => simp at hr
  · intro i hi w
    rw [hws i hi]
    constructor
    · rintro ⟨k, x, hk, hx, rfl⟩; exact ⟨0, rest, k, x, rfl, hk, hx, rfl⟩
    · rintro ⟨o, r, k, x, hr, hk, hx, rfl⟩
      cases o with
      | zero => rw [List.getElem?_cons_zero, Option.some_inj] at hr; subst hr; exact ⟨k, x, hk, hx, rfl⟩
      | succ o => simp at hr
  · intro o r hr shape e hse i hi idx hidx
    cases o with
    | zero =>
      rw [List.getElem?_cons_zero, Option.some_inj] at hr hse
      subst hr
      cases hse
      exact he i hi idx hidx
    | succ o => simp at hr

section
variable {hw n pd : ℕ} {nthreads : ℤ} {queries : NdArray K} {rows : ℕ → List K}

theorem row_length (hs : queries.shape = [n, pd]) {i : ℕ} {r : List K} (h : Row queries i r) : r.length = pd := by
  obtain ⟨n', w', hs', _, hl, _⟩ := h
  rw [hs] at hs'
  simp only [List.cons.injEq, and_true] at hs'
  omega

/-- C121 for `Spline.evaluate`: row `i` of the result is the value of the spline at row `i` of the queries, for arrays of any memory
layout and every schedule of the threads. -/
theorem evaluate_batch (value : List K → List K) (dim : ℕ) (hv : ∀ q, q.length = pd → (value q).length = dim)
    (hsafe : Safe hw n nthreads) (hs : queries.shape = [n, pd]) (hvalid : Valid queries)
    (hrows : ∀ i < n, Row queries i (rows i)) :
    Returns (pyEvaluate value pd dim hw queries nthreads)
      [([n, dim], fun | [i, d] => ((value (rows i))[d]?).map .num | _ => none)] := by
  obtain ⟨q, hq, hf⟩ := enforce_faithful hvalid
  unfold pyEvaluate evaluate
  rw [hq, Option.bind_some]
  have hl : ∀ i < n, (value (rows i)).length = dim := fun i hi => hv _ (row_length hs (hrows i hi))
  refine returns_one hsafe (by rw [hf.1, hs]) (ws := fun i => put 0 (i * dim) ((value (rows i)).map .num))
    (fun i hi => by rw [faithful_row hf hs (hrows i hi)]; rfl) [dim] (fun i k => ((value (rows i))[k]?).map .num) ?_ ?_ _ ?_
  · intro i hi k hk
    exact num_some (hl i hi) (by simpa using hk)
  · intro i hi w
    simp only [List.prod_cons, List.prod_nil, Nat.mul_one]
    exact mem_put_num (hl i hi)
  · intro i hi idx hidx
    match idx, hidx with
    | [d], hidx => simp [offset]
    | [], hidx => cases hidx
    | _ :: _ :: _, hidx => cases hidx with | cons _ h => cases h

/-- C121 for `Spline.support`. -/
theorem support_batch (supp : List K → List ℤ) (nSupport : ℕ) (hv : ∀ q, q.length = pd → (supp q).length = nSupport)
    (hsafe : Safe hw n nthreads) (hs : queries.shape = [n, pd]) (hvalid : Valid queries)
    (hrows : ∀ i < n, Row queries i (rows i)) :
    Returns (pySupport supp pd nSupport hw queries nthreads)
      [([n, nSupport], fun | [i, d] => ((supp (rows i))[d]?).map .id | _ => none)] := by
  obtain ⟨q, hq, hf⟩ := enforce_faithful hvalid
  unfold pySupport support
  rw [hq, Option.bind_some]
  have hl : ∀ i < n, (supp (rows i)).length = nSupport := fun i hi => hv _ (row_length hs (hrows i hi))
  refine returns_one hsafe (by rw [hf.1, hs]) (ws := fun i => put 0 (i * nSupport) ((supp (rows i)).map .id))
    (fun i hi => by rw [faithful_row hf hs (hrows i hi)]; rfl) [nSupport] (fun i k => ((supp (rows i))[k]?).map .id) ?_ ?_ _ ?_
  · intro i hi k hk
    rw [List.getElem?_eq_getElem (by rw [hl i hi]; simpa using hk)]; rfl
  · intro i hi w
    simp only [List.prod_cons, List.prod_nil, Nat.mul_one]
    exact mem_put_id (hl i hi)
  · intro i hi idx hidx
    match idx, hidx with
    | [d], hidx => simp [offset]
    | [], hidx => cases hidx
    | _ :: _ :: _, hidx => cases hidx with | cons _ h => cases h

/-- C121 for `Spline.basis`. -/
theorem basis_batch (bas : List K → List K) (nSupport : ℕ) (hv : ∀ q, q.length = pd → (bas q).length = nSupport)
    (hsafe : Safe hw n nthreads) (hs : queries.shape = [n, pd]) (hvalid : Valid queries)
    (hrows : ∀ i < n, Row queries i (rows i)) :
    Returns (pyBasis bas pd nSupport hw queries nthreads)
      [([n, nSupport], fun | [i, d] => ((bas (rows i))[d]?).map .num | _ => none)] := by
  obtain ⟨q, hq, hf⟩ := enforce_faithful hvalid
  unfold pyBasis basis
  rw [hq, Option.bind_some]
  have hl : ∀ i < n, (bas (rows i)).length = nSupport := fun i hi => hv _ (row_length hs (hrows i hi))
  refine returns_one hsafe (by rw [hf.1, hs]) (ws := fun i => put 0 (i * nSupport) ((bas (rows i)).map .num))
    (fun i hi => by rw [faithful_row hf hs (hrows i hi)]; rfl) [nSupport] (fun i k => ((bas (rows i))[k]?).map .num) ?_ ?_ _ ?_
  · intro i hi k hk
    exact num_some (hl i hi) (by simpa using hk)
  · intro i hi w
    simp only [List.prod_cons, List.prod_nil, Nat.mul_one]
    exact mem_put_num (hl i hi)
  · intro i hi idx hidx
    match idx, hidx with
    | [d], hidx => simp [offset]
    | [], hidx => cases hidx
    | _ :: _ :: _, hidx => cases hidx with | cons _ h => cases h

/-- C121 for `Spline.jacobian`: entry `(i, j, k)` is coordinate `j` of the derivative along direction `k` at query `i`. -/
theorem jacobian_batch (derive : List K → List ℤ → List K) (dim : ℕ)
    (hv : ∀ q o, q.length = pd → (derive q o).length = dim)
    (hsafe : Safe hw n nthreads) (hs : queries.shape = [n, pd]) (hvalid : Valid queries)
    (hrows : ∀ i < n, Row queries i (rows i)) :
    Returns (pyJacobian derive pd dim hw queries nthreads)
      [([n, dim, pd], fun
        | [i, j, k] => ((derive (rows i) ((List.replicate pd 0).set k 1))[j]?).map .num
        | _ => none)] := by
  obtain ⟨q, hq, hf⟩ := enforce_faithful hvalid
  unfold pyJacobian jacobian
  rw [hq, Option.bind_some]
  have hl : ∀ i < n, ∀ o, (derive (rows i) o).length = dim := fun i hi o => hv _ o (row_length hs (hrows i hi))
  have heye : ∀ k, eye pd k = (List.replicate pd 0).set k 1 := by
    intro k
    apply List.ext_getElem (by simp [eye])
    intro t h1 h2
    simp only [eye, List.getElem_map, List.getElem_range, List.getElem_set, List.getElem_replicate]
    by_cases h : t = k
    · simp [h]
    · simp [h, Ne.symm h]
  refine returns_one hsafe (by rw [hf.1, hs]) (ws := fun i => jacobianAt derive pd (i * (pd * dim)) (rows i))
    (fun i hi => by rw [faithful_row hf hs (hrows i hi)]; rfl) [dim, pd]
    (fun i k => ((derive (rows i) (eye pd (k % pd)))[k / pd]?).map .num) ?_ ?_ _ ?_
  · intro i hi k hk
    refine num_some (hl i hi _) ?_
    simp only [List.prod_cons, List.prod_nil, Nat.mul_one] at hk
    exact Nat.div_lt_of_lt_mul (by rwa [Nat.mul_comm])
  · intro i hi w
    simp only [List.prod_cons, List.prod_nil, Nat.mul_one]
    unfold jacobianAt
    simp only [List.mem_flatMap, List.mem_range, List.mem_map]
    constructor
    · rintro ⟨k, hk, ⟨x, j⟩, hj, rfl⟩
      have hj := List.mem_zipIdx_iff_getElem?.1 hj
      simp only at hj
      have hjd : j < dim := by
        rw [← hl i hi (eye pd k)]
        by_contra hc
        rw [List.getElem?_eq_none (by omega)] at hj
        cases hj
      refine ⟨j * pd + k, .num x, ?_, ?_, ?_⟩
      · calc j * pd + k < j * pd + pd := by omega
          _ = (j + 1) * pd := by ring
          _ ≤ dim * pd := Nat.mul_le_mul_right _ hjd
      · have h1 : (j * pd + k) % pd = k := by
          rw [Nat.mul_comm, Nat.mul_add_mod, Nat.mod_eq_of_lt hk]
        have h2 : (j * pd + k) / pd = j := by
          rw [Nat.mul_comm, Nat.mul_add_div (by omega), Nat.div_eq_of_lt hk]; simp
        rw [h1, h2, hj]; rfl
      · rw [Nat.mul_comm pd dim]
    · rintro ⟨k, x, hk, hx, rfl⟩
      have hpd : 0 < pd := by
        rcases Nat.eq_zero_or_pos pd with h | h
        · subst h; simp at hk
        · exact h
      obtain ⟨y, hy, rfl⟩ := Option.map_eq_some_iff.1 hx
      refine ⟨k % pd, Nat.mod_lt _ hpd, (y, k / pd), List.mem_zipIdx_iff_getElem?.2 hy, ?_⟩
      rw [Nat.div_add_mod' k pd, Nat.mul_comm pd dim]
  · intro i hi idx hidx
    match idx, hidx with
    | [j, k], hidx =>
      cases hidx with
      | cons hj h =>
        cases h with
        | cons hk h =>
          have h1 : (j * pd + k) % pd = k := by
            rw [Nat.mul_comm, Nat.mul_add_mod, Nat.mod_eq_of_lt hk]
          have h2 : (j * pd + k) / pd = j := by
            rw [Nat.mul_comm, Nat.mul_add_div (by omega), Nat.div_eq_of_lt hk]; simp
          simp [offset, h1, h2, heye]
    | [], hidx => cases hidx
    | [_], hidx => cases hidx with | cons _ h => cases h
    | _ :: _ :: _ :: _, hidx => cases hidx with | cons _ h => cases h with | cons _ h => cases h

/-- The orders of a call: `m` rows of an array, or one row without the second axis. -/
def Spec.Orders (pd : ℕ) (a : NdArray ℤ) (m : ℕ) (orders : ℕ → List ℤ) : Prop :=
  (a.shape = [m, pd] ∧ ∀ j < m, Row a j (orders j)) ∨
  (m = 1 ∧ a.shape = [pd] ∧ (orders 0).length = pd ∧ ∀ k < pd, a.at [k] = (orders 0)[k]?)

/-- Shape of results for `m` orders: no axis for a single one. -/
def Spec.orderShape (n m width : ℕ) : List ℕ := if m = 1 then [n, width] else [n, m, width]

theorem orders_faithful {a b : NdArray ℤ} {m : ℕ} {orders : ℕ → List ℤ} (hf : Faithful b a) (h : Spec.Orders pd a m orders)
    (hpd : 0 < pd) (hm : 0 < m) :
    nOrders b.shape pd = some m ∧ ∀ j < m, b.rawRow pd j = some (orders j) := by
  rcases h with ⟨hs, hr⟩ | ⟨rfl, hs, hl, hk⟩
  · refine ⟨?_, fun j hj => faithful_row hf hs (hr j hj)⟩
    rw [hf.1, hs]
    unfold nOrders
    split
    · next h =>
      simp only [List.prod_cons, List.prod_nil, Nat.mul_one] at h
      congr 1
      have : m * pd = 1 * pd := by omega
      exact (Nat.eq_of_mul_eq_mul_right hpd this).symm
    · simp [checkRows]
  · refine ⟨by rw [hf.1, hs]; simp [nOrders], fun j hj => ?_⟩
    have hj0 : j = 0 := by omega
    subst hj0
    apply mapM_range_eq hl
    intro k hkp
    have := hf.2 [k] (by rw [hs]; exact List.Forall₂.cons hkp List.Forall₂.nil)
    rw [hs] at this
    simpa [offset, hk k hkp] using this

theorem mem_overOrders {q : NdArray K} {o : NdArray ℤ} {derive : List K → List ℤ → List K} {width m : ℕ} {orders : ℕ → List ℤ}
    {i : ℕ} {r : List K} (hq : q.rawRow pd i = some r) (ho : ∀ j < m, o.rawRow pd j = some (orders j))
    (hl : ∀ j < m, (derive r (orders j)).length = width) :
    ∃ ws, overOrders derive pd width m q o i = some ws ∧ ∀ w, w ∈ ws ↔
      ∃ k x, k < m * width ∧ ((derive r (orders (k / width)))[k % width]?).map Value.num = some x ∧
        w = ((0, i * (m * width) + k), x) := by
  unfold overOrders
  rw [hq, Option.bind_some]
  rw [mapM_eq_some_map _ (fun j => put 0 (i * (width * m) + j * width) ((derive r (orders j)).map .num)) (List.range m)
    (fun j hj => by rw [ho j (List.mem_range.1 hj)]; rfl)]
  refine ⟨_, rfl, fun w => ?_⟩
  rw [List.mem_flatten]
  simp only [List.mem_map, List.mem_range]
  constructor
  · rintro ⟨l, ⟨j, hj, rfl⟩, hw⟩
    obtain ⟨d, x, hd, hx, rfl⟩ := (mem_put_num (hl j hj)).1 hw
    have h1 : (j * width + d) % width = d := by
      rw [Nat.mul_comm, Nat.mul_add_mod, Nat.mod_eq_of_lt hd]
    have h2 : (j * width + d) / width = j := by
      rw [Nat.mul_comm, Nat.mul_add_div (by omega), Nat.div_eq_of_lt hd]; simp
    refine ⟨j * width + d, x, ?_, by rw [h1, h2]; exact hx, by rw [Nat.mul_comm width m, Nat.add_assoc]⟩
    calc j * width + d < j * width + width := by omega
      _ = (j + 1) * width := by ring
      _ ≤ m * width := Nat.mul_le_mul_right _ hj
  · rintro ⟨k, x, hk, hx, rfl⟩
    have hw : 0 < width := by
      rcases Nat.eq_zero_or_pos width with h | h
      · subst h; simp at hk
      · exact h
    have hj : k / width < m := Nat.div_lt_of_lt_mul (by rwa [Nat.mul_comm])
    refine ⟨_, ⟨k / width, hj, rfl⟩, (mem_put_num (hl _ hj)).2 ⟨k % width, x, Nat.mod_lt _ hw, hx, ?_⟩⟩
    rw [Nat.add_assoc, Nat.div_add_mod' k width, Nat.mul_comm width m]

/-- Entries of the result of a query with several orders. -/
def Spec.orderEntry (derive : List K → List ℤ → List K) (rows : ℕ → List K) (orders : ℕ → List ℤ) (m : ℕ) :
    List ℕ → Option (Value K)
  | [i, j, d] => ((derive (rows i) (orders j))[d]?).map .num
  | [i, d] => if m = 1 then ((derive (rows i) (orders 0))[d]?).map .num else none
  | _ => none

theorem orderEntry_eq {derive : List K → List ℤ → List K} {rows : ℕ → List K} {orders : ℕ → List ℤ} {m width : ℕ} {rest : List ℕ}
    (hr : rest = if m = 1 then [width] else [m, width]) (i : ℕ) {idx : List ℕ} (hidx : InShape rest idx) :
    Spec.orderEntry derive rows orders m (i :: idx) =
      ((derive (rows i) (orders (offset rest idx / width)))[offset rest idx % width]?).map .num := by
  by_cases hm : m = 1
  · rw [if_pos hm] at hr
    subst hr
    match idx, hidx with
    | [d], hidx =>
      cases hidx with
      | cons hd _ => simp [Spec.orderEntry, offset, hm, Nat.mod_eq_of_lt hd, Nat.div_eq_of_lt hd]
    | [], hidx => cases hidx
    | _ :: _ :: _, hidx => cases hidx with | cons _ h => cases h
  · rw [if_neg hm] at hr
    subst hr
    match idx, hidx with
    | [j, d], hidx =>
      cases hidx with
      | cons hj h =>
        cases h with
        | cons hd _ =>
          have h1 : (j * width + d) % width = d := by
            rw [Nat.mul_comm, Nat.mul_add_mod, Nat.mod_eq_of_lt hd]
          have h2 : (j * width + d) / width = j := by
            rw [Nat.mul_comm, Nat.mul_add_div (by omega), Nat.div_eq_of_lt hd]; simp
          simp [Spec.orderEntry, offset, h1, h2]
    | [], hidx => cases hidx
    | [_], hidx => cases hidx with | cons _ h => cases h
    | _ :: _ :: _ :: _, hidx => cases hidx with | cons _ h => cases h with | cons _ h => cases h

theorem ordersShape_eq {m width : ℕ} (hm : 0 < m) : ordersShape n m width = n :: (if m = 1 then [width] else [m, width]) := by
  unfold ordersShape
  by_cases h : m = 1
  · subst h; simp
  · rw [if_pos (by omega), if_neg h]

theorem derivative_any (derive : List K → List ℤ → List K) (width m : ℕ) {orders : NdArray ℤ} {os : ℕ → List ℤ}
    (hv : ∀ q o, q.length = pd → (derive q o).length = width)
    (hsafe : Safe hw n nthreads) (hs : queries.shape = [n, pd]) (hvalid : Valid queries) (hrows : ∀ i < n, Row queries i (rows i))
    (hpd : 0 < pd) (hm : 0 < m) (hov : Valid orders) (ho : Spec.Orders pd orders m os) :
    Returns (pyDerivative derive pd width hw queries orders nthreads)
      [(Spec.orderShape n m width, Spec.orderEntry derive rows os m)] := by
  obtain ⟨q, hq, hf⟩ := enforce_faithful hvalid
  obtain ⟨o, hoe, hof⟩ := enforce_faithful hov
  obtain ⟨hn, hor⟩ := orders_faithful hof ho hpd hm
  have hbody : ∀ i < n, _ := fun i hi => mem_overOrders (derive := derive) (width := width)
    (faithful_row hf hs (hrows i hi)) hor (fun j _ => hv _ (os j) (row_length hs (hrows i hi)))
  choose! ws hws hmem using hbody
  have hshape : Spec.orderShape n m width = n :: (if m = 1 then [width] else [m, width]) := by
    unfold Spec.orderShape; split <;> rfl
  have hprod : (if m = 1 then [width] else [m, width]).prod = m * width := by
    split
    · next h => simp [h]
    · simp
  have := returns_one hsafe (q := q) (pd := pd) (by rw [hf.1, hs]) hws (if m = 1 then [width] else [m, width])
    (fun i k => ((derive (rows i) (os (k / width)))[k % width]?).map .num) ?_ (by rw [hprod]; exact hmem)
    (Spec.orderEntry derive rows os m) (fun i _ idx hidx => orderEntry_eq rfl i hidx)
  · unfold pyDerivative derivative
    rw [hq, Option.bind_some, hoe, Option.bind_some, hshape]
    simp only [hn, Option.bind_some, ordersShape_eq hm]
    exact this
  · intro i hi k hk
    rw [hprod] at hk
    have hw : 0 < width := by
      rcases Nat.eq_zero_or_pos width with h | h
      · subst h; simp at hk
      · exact h
    exact num_some (hv _ _ (row_length hs (hrows i hi))) (Nat.mod_lt _ hw)

/-- C121 for `Spline.derivative`: entry `(i, j)` is the derivative of order `j` at query `i`; a single order gives no axis for orders. -/
theorem derivative_batch (derive : List K → List ℤ → List K) (dim m : ℕ) {orders : NdArray ℤ} {os : ℕ → List ℤ}
    (hv : ∀ q o, q.length = pd → (derive q o).length = dim)
    (hsafe : Safe hw n nthreads) (hs : queries.shape = [n, pd]) (hvalid : Valid queries) (hrows : ∀ i < n, Row queries i (rows i))
    (hpd : 0 < pd) (hm : 0 < m) (hov : Valid orders) (ho : Spec.Orders pd orders m os) :
    Returns (pyDerivative derive pd dim hw queries orders nthreads)
      [(Spec.orderShape n m dim, Spec.orderEntry derive rows os m)] :=
  derivative_any derive dim m hv hsafe hs hvalid hrows hpd hm hov ho

/-- C121 for `Spline.basis_derivative`. -/
theorem basis_derivative_batch (basDer : List K → List ℤ → List K) (nSupport m : ℕ) {orders : NdArray ℤ} {os : ℕ → List ℤ}
    (hv : ∀ q o, q.length = pd → (basDer q o).length = nSupport)
    (hsafe : Safe hw n nthreads) (hs : queries.shape = [n, pd]) (hvalid : Valid queries) (hrows : ∀ i < n, Row queries i (rows i))
    (hpd : 0 < pd) (hm : 0 < m) (hov : Valid orders) (ho : Spec.Orders pd orders m os) :
    Returns (pyBasisDerivative basDer pd nSupport hw queries orders nthreads)
      [(Spec.orderShape n m nSupport, Spec.orderEntry basDer rows os m)] :=
  derivative_any basDer nSupport m hv hsafe hs hvalid hrows hpd hm hov ho

/-- C121 for `Spline.basis_and_support`. -/
theorem basis_and_support_batch (bas : List K → List K) (supp : List K → List ℤ) (nSupport : ℕ)
    (hb : ∀ q, q.length = pd → (bas q).length = nSupport) (hv : ∀ q, q.length = pd → (supp q).length = nSupport)
    (hsafe : Safe hw n nthreads) (hs : queries.shape = [n, pd]) (hvalid : Valid queries)
    (hrows : ∀ i < n, Row queries i (rows i)) :
    Returns (pyBasisAndSupport bas supp pd nSupport hw queries nthreads)
      [([n, nSupport], fun | [i, d] => ((bas (rows i))[d]?).map .num | _ => none),
       ([n, nSupport], fun | [i, d] => ((supp (rows i))[d]?).map .id | _ => none)] := by
  obtain ⟨q, hq, hf⟩ := enforce_faithful hvalid
  unfold pyBasisAndSupport basisAndSupport
  rw [hq, Option.bind_some]
  have hlb : ∀ i < n, (bas (rows i)).length = nSupport := fun i hi => hb _ (row_length hs (hrows i hi))
  have hls : ∀ i < n, (supp (rows i)).length = nSupport := fun i hi => hv _ (row_length hs (hrows i hi))
  obtain ⟨ts, ht, hm⟩ := fill_spec hsafe (fun i => (q.rawRow pd i).map (fun q =>
        put 0 (i * nSupport) ((bas q).map .num) ++ put 1 (i * nSupport) ((supp q).map .id)))
    (fun i => put 0 (i * nSupport) ((bas (rows i)).map .num) ++ put 1 (i * nSupport) ((supp (rows i)).map .id))
    (fun i hi => by rw [faithful_row hf hs (hrows i hi)]; rfl)
  have h1 : checkRows q.shape pd = some n := by rw [hf.1, hs]; simp [checkRows]
  rw [h1, Option.bind_some, ht, Option.map_some]
  refine returns_of_blocks hm [[nSupport], [nSupport]] (fun o i k => match o with
    | 0 => ((bas (rows i))[k]?).map .num
    | _ => ((supp (rows i))[k]?).map .id) ?_ ?_ _ rfl ?_
  · intro o r hr i hi k hk
    match o, hr with
    | 0, hr => cases hr; exact num_some (hlb i hi) (by simpa using hk)
    | 1, hr =>
      cases hr
      simp only
      rw [List.getElem?_eq_getElem (by rw [hls i hi]; simpa using hk)]; rfl
    | _ + 2, hr => simp at hr
  · intro i hi w
    rw [List.mem_append, mem_put_num (hlb i hi), mem_put_id (hls i hi)]
    constructor
    · rintro (⟨k, x, hk, hx, rfl⟩ | ⟨k, x, hk, hx, rfl⟩)
      · exact ⟨0, [nSupport], k, x, rfl, by simpa using hk, hx, by simp⟩
      · exact ⟨1, [nSupport], k, x, rfl, by simpa using hk, hx, by simp⟩
    · rintro ⟨o, r, k, x, hr, hk, hx, rfl⟩
      match o, hr with
      | 0, hr => cases hr; exact Or.inl ⟨k, x, by simpa using hk, hx, by simp⟩
      | 1, hr => cases hr; exact Or.inr ⟨k, x, by simpa using hk, hx, by simp⟩
      | _ + 2, hr => simp at hr
  · intro o r hr shape e hse i hi idx hidx
    match o, hr, hse with
    | 0, hr, hse =>
      cases hr; cases hse
      match idx, hidx with
      | [d], hidx => simp [offset]
      | [], hidx => cases hidx
      | _ :: _ :: _, hidx => cases hidx with | cons _ h => cases h
    | 1, hr, hse =>
      cases hr; cases hse
      match idx, hidx with
      | [d], hidx => simp [offset]
      | [], hidx => cases hidx
      | _ :: _ :: _, hidx => cases hidx with | cons _ h => cases h
    | _ + 2, hr, _ => simp at hr

/-- C121 for `Spline.basis_derivative_and_support`: the two results of `basis_derivative` and `support`. -/
theorem basis_derivative_and_support_batch (basDer : List K → List ℤ → List K) (supp : List K → List ℤ) (nSupport m : ℕ)
    {orders : NdArray ℤ} {os : ℕ → List ℤ} (hb : ∀ q o, q.length = pd → (basDer q o).length = nSupport)
    (hv : ∀ q, q.length = pd → (supp q).length = nSupport)
    (hsafe : Safe hw n nthreads) (hs : queries.shape = [n, pd]) (hvalid : Valid queries) (hrows : ∀ i < n, Row queries i (rows i))
    (hpd : 0 < pd) (hm : 0 < m) (hov : Valid orders) (ho : Spec.Orders pd orders m os) :
    Returns (pyBasisDerivativeAndSupport basDer supp pd nSupport hw queries orders nthreads)
      [(Spec.orderShape n m nSupport, Spec.orderEntry basDer rows os m),
       ([n, nSupport], fun | [i, d] => ((supp (rows i))[d]?).map .id | _ => none)] := by
  obtain ⟨q, hq, hf⟩ := enforce_faithful hvalid
  obtain ⟨o, hoe, hof⟩ := enforce_faithful hov
  obtain ⟨hn, hor⟩ := orders_faithful hof ho hpd hm
  have hbody : ∀ i < n, _ := fun i hi => mem_overOrders (derive := basDer) (width := nSupport)
    (faithful_row hf hs (hrows i hi)) hor (fun j _ => hb _ (os j) (row_length hs (hrows i hi)))
  choose! ws hws hmem using hbody
  have hls : ∀ i < n, (supp (rows i)).length = nSupport := fun i hi => hv _ (row_length hs (hrows i hi))
  have hshape : Spec.orderShape n m nSupport = n :: (if m = 1 then [nSupport] else [m, nSupport]) := by
    unfold Spec.orderShape; split <;> rfl
  have hprod : (if m = 1 then [nSupport] else [m, nSupport]).prod = m * nSupport := by
    split
    · next h => simp [h]
    · simp
  unfold pyBasisDerivativeAndSupport basisDerivativeAndSupport
  have h1 : checkRows q.shape pd = some n := by rw [hf.1, hs]; simp [checkRows]
  obtain ⟨ts, ht, htm⟩ := fill_spec hsafe (fun i => (overOrders basDer pd nSupport m q o i).bind (fun ders =>
          (q.rawRow pd i).map (fun q => ders ++ put 1 (i * nSupport) ((supp q).map .id))))
    (fun i => ws i ++ put 1 (i * nSupport) ((supp (rows i)).map .id))
    (fun i hi => by rw [hws i hi, Option.bind_some, faithful_row hf hs (hrows i hi)]; rfl)
  rw [hq, Option.bind_some, hoe, Option.bind_some, h1, Option.bind_some, hn, Option.bind_some, ht, Option.map_some, hshape,
    ordersShape_eq hm]
  refine returns_of_blocks htm [if m = 1 then [nSupport] else [m, nSupport], [nSupport]] (fun o i k => match o with
    | 0 => ((basDer (rows i) (os (k / nSupport)))[k % nSupport]?).map .num
    | _ => ((supp (rows i))[k]?).map .id) ?_ ?_ _ rfl ?_
  · intro o r hr i hi k hk
    match o, hr with
    | 0, hr =>
      rw [List.getElem?_cons_zero, Option.some_inj] at hr
      subst hr
      rw [hprod] at hk
      have hw : 0 < nSupport := by
        rcases Nat.eq_zero_or_pos nSupport with h | h
        · subst h; simp at hk
        · exact h
      exact num_some (hb _ _ (row_length hs (hrows i hi))) (Nat.mod_lt _ hw)
    | 1, hr =>
      cases hr
      simp only
      rw [List.getElem?_eq_getElem (by rw [hls i hi]; simpa using hk)]; rfl
    | _ + 2, hr => simp at hr
  · intro i hi w
    rw [List.mem_append, hmem i hi, mem_put_id (hls i hi)]
    constructor
    · rintro (⟨k, x, hk, hx, rfl⟩ | ⟨k, x, hk, hx, rfl⟩)
      · exact ⟨0, _, k, x, rfl, by rwa [hprod], hx, by rw [hprod]⟩
      · exact ⟨1, [nSupport], k, x, rfl, by simpa using hk, hx, by simp⟩
    · rintro ⟨o, r, k, x, hr, hk, hx, rfl⟩
      match o, hr with
      | 0, hr =>
        rw [List.getElem?_cons_zero, Option.some_inj] at hr
        subst hr
        rw [hprod] at hk ⊢
        exact Or.inl ⟨k, x, hk, hx, rfl⟩
      | 1, hr => cases hr; exact Or.inr ⟨k, x, by simpa using hk, hx, by simp⟩
      | _ + 2, hr => simp at hr
  · intro o r hr shape e hse i hi idx hidx
    match o, hr, hse with
    | 0, hr, hse =>
      rw [List.getElem?_cons_zero, Option.some_inj] at hr hse
      cases hse
      exact orderEntry_eq hr.symm i hidx
    | 1, hr, hse =>
      cases hr; cases hse
      match idx, hidx with
      | [d], hidx => simp [offset]
      | [], hidx => cases hidx
      | _ :: _ :: _, hidx => cases hidx with | cons _ h => cases h
    | _ + 2, hr, _ => simp at hr

/-- What `proximities` stores for a query has the sizes of the returned arrays. -/
def Spec.VerboseSizes (pd dim : ℕ) (v : Verbose K) : Prop :=
  v.paraCoord.length = pd ∧ v.physCoord.length = dim ∧ v.physDiff.length = dim ∧ v.first.length = pd * dim ∧
    v.second.length = pd * (pd * dim)

/-- Resolutions `proximities` accepts: at least two up to the first negative one, if there is any. -/
def Spec.Accepted (res : List ℤ) : Prop :=
  (∀ r ∈ res, 2 ≤ r) ∨ ∃ pre r post, res = pre ++ r :: post ∧ (∀ x ∈ pre, 2 ≤ x) ∧ r < 0

/-- A search tree is planted exactly if all resolutions are at least two; an exception is raised exactly for the others without a
negative entry in front. -/
theorem plantTree_spec (res : List ℤ) :
    (plantTree res = some true ↔ ∀ r ∈ res, 2 ≤ r) ∧ ((plantTree res).isSome ↔ Spec.Accepted res) := by
  induction res with
  | nil => simp [plantTree, Spec.Accepted]
  | cons r rs ih =>
    unfold plantTree
    by_cases h0 : r < 0
    · rw [if_pos h0]
      refine ⟨by simp; intro; omega, by simp; exact Or.inr ⟨[], r, rs, rfl, by simp, h0⟩⟩
    · rw [if_neg h0]
      by_cases h2 : r < 2
      · rw [if_pos h2]
        refine ⟨by simp; intro; omega, ?_⟩
        simp only [Option.isSome_none, Bool.false_eq_true, false_iff]
        rintro (h | ⟨pre, x, post, he, hp, hx⟩)
        · have := h r (by simp); omega
        · cases pre with
          | nil => simp only [List.nil_append, List.cons.injEq] at he; omega
          | cons y ys =>
            simp only [List.cons_append, List.cons.injEq] at he
            have := hp y (by simp); omega
      · rw [if_neg h2]
        refine ⟨by rw [ih.1]; simp; omega, ?_⟩
        rw [ih.2]
        constructor
        · rintro (h | ⟨pre, x, post, rfl, hp, hx⟩)
          · left; intro y hy; rcases List.mem_cons.1 hy with rfl | hy
            · omega
            · exact h y hy
          · exact Or.inr ⟨r :: pre, x, post, rfl, by
              intro y hy; rcases List.mem_cons.1 hy with rfl | hy
              · omega
              · exact hp y hy, hx⟩
        · rintro (h | ⟨pre, x, post, he, hp, hx⟩)
          · exact Or.inl (fun y hy => h y (List.mem_cons_of_mem _ hy))
          · cases pre with
            | nil => simp only [List.nil_append, List.cons.injEq] at he; omega
            | cons y ys =>
              simp only [List.cons_append, List.cons.injEq] at he
              obtain ⟨rfl, rfl⟩ := he
              exact Or.inr ⟨ys, x, post, rfl, fun z hz => hp z (List.mem_cons_of_mem _ hz), hx⟩

example : Spec.Accepted [4, 2, 9] ∧ Spec.Accepted [4, -1, 0] ∧ plantTree [4, 1] = none :=
  ⟨Or.inl (by decide), Or.inr ⟨[4], -1, [0], rfl, by decide, by decide⟩, by decide⟩

/-- C121 for `Spline.proximities`, with resolutions in a contiguous array: row `i` of each returned array belongs to query `i`. -/
theorem proximities_batch_partial (search : List K → Verbose K) (dim : ℕ) {resolutions : NdArray ℤ} {res : List ℤ}
    (hv : ∀ q, q.length = dim → Spec.VerboseSizes pd dim (search q))
    (hsafe : Safe hw n nthreads) (hs : queries.shape = [n, dim]) (hvalid : Valid queries)
    (hrows : ∀ i < n, Row queries i (rows i)) (hrs : resolutions.shape = [pd]) (hrv : Valid resolutions)
    (hrc : resolutions.cContiguous = true) (hrl : res.length = pd) (hr : ∀ k < pd, resolutions.at [k] = res[k]?)
    (hacc : Spec.Accepted res) :
    Returns (pyProximities search pd dim hw queries resolutions nthreads)
      [([n, pd], fun | [i, d] => ((search (rows i)).paraCoord[d]?).map .num | _ => none),
       ([n, dim], fun | [i, d] => ((search (rows i)).physCoord[d]?).map .num | _ => none),
       ([n, dim], fun | [i, d] => ((search (rows i)).physDiff[d]?).map .num | _ => none),
       ([n, 1], fun | [i, 0] => some (.num (search (rows i)).distance) | _ => none),
       ([n, 1], fun | [i, 0] => some (.num (search (rows i)).convergence) | _ => none),
       ([n, pd, dim], fun | [i, a, d] => ((search (rows i)).first[a * dim + d]?).map .num | _ => none),
       ([n, pd, pd, dim], fun
         | [i, a, b, d] => ((search (rows i)).second[a * (pd * dim) + (b * dim + d)]?).map .num
         | _ => none)] := by
  obtain ⟨q, hq, hf⟩ := enforce_faithful hvalid
  unfold pyProximities proximities
  rw [hq, Option.bind_some]
  have hl : ∀ i < n, Spec.VerboseSizes pd dim (search (rows i)) := fun i hi => hv _ (row_length hs (hrows i hi))
  obtain ⟨ts, ht, hm⟩ := fill_spec hsafe (fun i => (q.rawRow dim i).map (fun q =>
            put 0 (i * pd) ((search q).paraCoord.map .num) ++ put 1 (i * dim) ((search q).physCoord.map .num)
              ++ put 2 (i * dim) ((search q).physDiff.map .num) ++ put 3 i [.num (search q).distance]
              ++ put 4 i [.num (search q).convergence]
              ++ put 5 (i * (pd * dim)) ((search q).first.map .num)
              ++ put 6 (i * (pd * (pd * dim))) ((search q).second.map .num)))
    (fun i => put 0 (i * pd) ((search (rows i)).paraCoord.map .num) ++ put 1 (i * dim) ((search (rows i)).physCoord.map .num)
              ++ put 2 (i * dim) ((search (rows i)).physDiff.map .num) ++ put 3 (i * 1) ([(search (rows i)).distance].map .num)
              ++ put 4 (i * 1) ([(search (rows i)).convergence].map .num)
              ++ put 5 (i * (pd * dim)) ((search (rows i)).first.map .num)
              ++ put 6 (i * (pd * (pd * dim))) ((search (rows i)).second.map .num))
    (fun i hi => by rw [faithful_row hf hs (hrows i hi), Nat.mul_one]; rfl)
  have h1 : checkRows q.shape dim = some n := by rw [hf.1, hs]; simp [checkRows]
  have h2 : resolutions.rawRow pd 0 = some res := by
    apply mapM_range_eq hrl
    intro k hk
    have := (contiguous_faithful hrv hrc).2 [k] (by rw [hrs]; exact List.Forall₂.cons hk List.Forall₂.nil)
    rw [hrs] at this
    simpa [offset, hr k hk] using this
  obtain ⟨b, hb⟩ := Option.isSome_iff_exists.1 ((plantTree_spec res).2.2 hacc)
  rw [h1, Option.bind_some, if_pos (by rw [hrs]; simp), h2, Option.bind_some, hb, Option.bind_some, ht, Option.map_some]
  refine returns_of_blocks hm [[pd], [dim], [dim], [1], [1], [pd, dim], [pd, pd, dim]] (fun o i k =>
    (([(search (rows i)).paraCoord, (search (rows i)).physCoord, (search (rows i)).physDiff, [(search (rows i)).distance],
      [(search (rows i)).convergence], (search (rows i)).first, (search (rows i)).second].getD o [])[k]?).map .num) ?_ ?_ _ rfl ?_
  · intro o r hr i hi k hk
    obtain ⟨l0, l1, l2, l5, l6⟩ := hl i hi
    match o, hr with
    | 0, hr => cases hr; exact num_some l0 (by simpa using hk)
    | 1, hr => cases hr; exact num_some l1 (by simpa using hk)
    | 2, hr => cases hr; exact num_some l2 (by simpa using hk)
    | 3, hr => cases hr; exact num_some (n := 1) rfl (by simpa using hk)
    | 4, hr => cases hr; exact num_some (n := 1) rfl (by simpa using hk)
    | 5, hr => cases hr; exact num_some l5 (by simpa using hk)
    | 6, hr => cases hr; exact num_some l6 (by simpa using hk)
    | _ + 7, hr => simp at hr
  · intro i hi w
    obtain ⟨l0, l1, l2, l5, l6⟩ := hl i hi
    simp only [List.mem_append]
    rw [mem_put_num l0, mem_put_num l1, mem_put_num l2, mem_put_num (n := 1) rfl, mem_put_num (n := 1) rfl, mem_put_num l5,
      mem_put_num l6]
    constructor
    · rintro ((((((⟨k, x, hk, hx, rfl⟩ | ⟨k, x, hk, hx, rfl⟩) | ⟨k, x, hk, hx, rfl⟩) | ⟨k, x, hk, hx, rfl⟩) |
        ⟨k, x, hk, hx, rfl⟩) | ⟨k, x, hk, hx, rfl⟩) | ⟨k, x, hk, hx, rfl⟩)
      · exact ⟨0, [pd], k, x, rfl, by simpa using hk, hx, by simp⟩
      · exact ⟨1, [dim], k, x, rfl, by simpa using hk, hx, by simp⟩
      · exact ⟨2, [dim], k, x, rfl, by simpa using hk, hx, by simp⟩
      · exact ⟨3, [1], k, x, rfl, by simpa using hk, hx, by simp⟩
      · exact ⟨4, [1], k, x, rfl, by simpa using hk, hx, by simp⟩
      · exact ⟨5, [pd, dim], k, x, rfl, by simpa using hk, hx, by simp⟩
      · exact ⟨6, [pd, pd, dim], k, x, rfl, by simpa using hk, hx, by simp⟩
    · rintro ⟨o, r, k, x, hr, hk, hx, rfl⟩
      match o, hr with
      | 0, hr => cases hr; exact Or.inl (Or.inl (Or.inl (Or.inl (Or.inl (Or.inl ⟨k, x, by simpa using hk, hx, by simp⟩)))))
      | 1, hr => cases hr; exact Or.inl (Or.inl (Or.inl (Or.inl (Or.inl (Or.inr ⟨k, x, by simpa using hk, hx, by simp⟩)))))
      | 2, hr => cases hr; exact Or.inl (Or.inl (Or.inl (Or.inl (Or.inr ⟨k, x, by simpa using hk, hx, by simp⟩))))
      | 3, hr => cases hr; exact Or.inl (Or.inl (Or.inl (Or.inr ⟨k, x, by simpa using hk, hx, by simp⟩)))
      | 4, hr => cases hr; exact Or.inl (Or.inl (Or.inr ⟨k, x, by simpa using hk, hx, by simp⟩))
      | 5, hr => cases hr; exact Or.inl (Or.inr ⟨k, x, by simpa using hk, hx, by simp⟩)
      | 6, hr => cases hr; exact Or.inr ⟨k, x, by simpa using hk, hx, by simp⟩
      | _ + 7, hr => simp at hr
  · have inv1 : ∀ {a : ℕ} {idx : List ℕ}, InShape [a] idx → ∃ d, idx = [d] ∧ d < a := by
      intro a idx h
      cases h with | cons h1 h => cases h; exact ⟨_, rfl, h1⟩
    intro o r hr shape e hse i hi idx hidx
    match o, hr, hse with
    | 0, hr, hse => cases hr; cases hse; obtain ⟨d, rfl, _⟩ := inv1 hidx; simp [offset]
    | 1, hr, hse => cases hr; cases hse; obtain ⟨d, rfl, _⟩ := inv1 hidx; simp [offset]
    | 2, hr, hse => cases hr; cases hse; obtain ⟨d, rfl, _⟩ := inv1 hidx; simp [offset]
    | 3, hr, hse =>
      cases hr; cases hse; obtain ⟨d, rfl, hd⟩ := inv1 hidx
      obtain rfl : d = 0 := by omega
      simp [offset]
    | 4, hr, hse =>
      cases hr; cases hse; obtain ⟨d, rfl, hd⟩ := inv1 hidx
      obtain rfl : d = 0 := by omega
      simp [offset]
    | 5, hr, hse =>
      cases hr; cases hse
      cases hidx with | cons _ hidx => obtain ⟨d, rfl, _⟩ := inv1 hidx; simp [offset]
    | 6, hr, hse =>
      cases hr; cases hse
      cases hidx with | cons _ hidx => cases hidx with | cons _ hidx => obtain ⟨d, rfl, _⟩ := inv1 hidx; simp [offset]
    | _ + 7, hr, _ => simp at hr

/-- C121 for `Multipatch.evaluate`, for queries stored in C order: row `s * n + i` is patch `s` at query `i`. -/
theorem multipatch_batch_partial (values : List (List K → List K)) (dim nthreads : ℕ)
    (hv : ∀ value ∈ values, ∀ q, q.length = pd → (value q).length = dim)
    (h1 : 1 ≤ nthreads) (h2 : 0 < values.length * n ∨ nthreads = 1)
    (hs : queries.shape = [n, pd]) (hvalid : Valid queries) (hc : queries.cContiguous = true)
    (hrows : ∀ i < n, Row queries i (rows i)) :
    Returns (pyMultipatchEvaluate values pd dim hw queries nthreads)
      [([values.length * n, dim], fun
        | [k, d] => (values[k / n]?).bind (fun value => ((value (rows (k % n)))[d]?).map .num)
        | _ => none)] := by
  have hf := contiguous_faithful hvalid hc
  obtain ⟨ts, ht, hperm⟩ := stridedThreads_perm hw (values.length * n) nthreads h1 h2
  unfold pyMultipatchEvaluate multipatchEvaluate
  have hcr : checkRows queries.shape pd = some n := by rw [hs]; simp [checkRows]
  have hm : ∀ i, i ∈ ts.flatten ↔ i < values.length * n := fun i => by rw [hperm.mem_iff, List.mem_range]
  have hpos : ∀ i < values.length * n, 0 < n ∧ i / n < values.length ∧ i % n < n := by
    intro i hi
    have hn : 0 < n := by
      rcases Nat.eq_zero_or_pos n with h | h
      · subst h; simp at hi
      · exact h
    exact ⟨hn, Nat.div_lt_of_lt_mul (by rwa [Nat.mul_comm]), Nat.mod_lt _ hn⟩
  rw [hcr, Option.bind_some, ht, Option.bind_some,
    mapM_blocks ts (fun i hi => (hm i).1 hi) _
      (fun i => put 0 (i * dim) (((values.getD (i / n) id) (rows (i % n))).map .num)) ?_, Option.map_some]
  · have hl : ∀ i < values.length * n, ((values.getD (i / n) id) (rows (i % n))).length = dim := by
      intro i hi
      obtain ⟨_, h3, h4⟩ := hpos i hi
      refine hv _ ?_ _ (row_length hs (hrows _ h4))
      rw [List.getD_eq_getElem?_getD, List.getElem?_eq_getElem h3]
      exact List.getElem_mem _
    refine returns_of_blocks (fun tr hs => mem_blocks hm hs) [[dim]]
      (fun _ i k => (((values.getD (i / n) id) (rows (i % n)))[k]?).map .num) ?_ ?_ _ rfl ?_
    · intro o r hr i hi k hk
      match o, hr with
      | 0, hr => cases hr; exact num_some (hl i hi) (by simpa using hk)
      | _ + 1, hr => simp at hr
    · intro i hi w
      rw [mem_put_num (hl i hi)]
      constructor
      · rintro ⟨k, x, hk, hx, rfl⟩; exact ⟨0, [dim], k, x, rfl, by simpa using hk, hx, by simp⟩
      · rintro ⟨o, r, k, x, hr, hk, hx, rfl⟩
        match o, hr with
        | 0, hr => cases hr; exact ⟨k, x, by simpa using hk, hx, by simp⟩
        | _ + 1, hr => simp at hr
    · intro o r hr shape e hse i hi idx hidx
      match o, hr, hse with
      | 0, hr, hse =>
        cases hr; cases hse
        obtain ⟨_, h3, h4⟩ := hpos i hi
        match idx, hidx with
        | [d], hidx => simp [offset, List.getElem?_eq_getElem h3]
        | [], hidx => cases hidx
        | _ :: _ :: _, hidx => cases hidx with | cons _ h => cases h
      | _ + 1, hr, _ => simp at hr
  · intro i hi
    obtain ⟨_, h3, h4⟩ := hpos i hi
    rw [List.getElem?_eq_getElem h3, Option.bind_some, faithful_row hf hs (hrows _ h4), Nat.div_add_mod' i n]
    simp [List.getElem?_eq_getElem h3]

end

/-! ### Non-vacuity and violations -/

/-- Four queries in the plane, kept as the transposed view of a `2 × 4` array: `[[0,1,2,3],[10,11,12,13]].T`. -/
def Spec.transposed : NdArray ℤ := ⟨[0, 1, 2, 3, 10, 11, 12, 13], 0, [4, 2], [1, 4]⟩

theorem transposed_valid : Valid Spec.transposed := by
  refine ⟨rfl, fun idx h => ?_⟩
  match idx, h with
  | [i, k], h =>
    cases h with
    | cons hi h => cases h with
      | cons hk h =>
        have hi : i < 4 := hi
        have hk : k < 2 := hk
        interval_cases i <;> interval_cases k <;> exact ⟨_, rfl⟩
  | [], h => cases h
  | [_], h => cases h with | cons _ h => cases h
  | _ :: _ :: _ :: _, h => cases h with | cons _ h => cases h with | cons _ h => cases h

theorem transposed_row (i : ℕ) (hi : i < 4) : Row Spec.transposed i [(i : ℤ), 10 + i] := by
  refine ⟨4, 2, rfl, hi, rfl, fun k hk => ?_⟩
  interval_cases i <;> interval_cases k <;> rfl

/-- non-vacuity: the four queries on two threads -/
example : Returns (pyEvaluate (fun q : List ℤ => [q.sum]) 2 1 8 Spec.transposed 2)
    [([4, 1], fun | [i, d] => (([([(i : ℤ), 10 + i] : List ℤ).sum])[d]?).map .num | _ => none)] :=
  evaluate_batch (rows := fun i => [(i : ℤ), 10 + i]) (fun q => [q.sum]) 1 (fun _ _ => rfl) (by right; decide) rfl transposed_valid
    transposed_row

/-- non-vacuity: first and second derivatives (orders as rows of an array) -/
example : Safe 8 4 2 ∧ Spec.Orders 2 (⟨[1, 0, 2, 0], 0, [2, 2], [2, 1]⟩ : NdArray ℤ) 2 (fun j => [(j : ℤ) + 1, 0]) := by
  refine ⟨by right; decide, Or.inl ⟨rfl, fun j hj => ⟨2, 2, rfl, hj, rfl, fun k hk => ?_⟩⟩⟩
  interval_cases j <;> interval_cases k <;> rfl

/-- C121 is violated by `Multipatch.evaluate`: the same four queries, kept as a transposed view, are read in the order of the memory:
the first query `(0, 10)` is evaluated as `(0, 1)`. -/
theorem multipatch_layout_violates :
    Row Spec.transposed 0 [0, 10] ∧
    ∃ c, pyMultipatchEvaluate [fun q : List ℤ => q] 2 2 8 Spec.transposed 1 = some c ∧
      ∀ trace, Schedule c.threads trace → after trace (0, offset [4, 2] [0, 1]) = some (.num 1) := by
  refine ⟨transposed_row 0 (by decide), ?_⟩
  have hv : Valid (⟨[0, 1, 2, 3, 10, 11, 12, 13], 0, [4, 2], [2, 1]⟩ : NdArray ℤ) := by
    refine ⟨rfl, fun idx h => ?_⟩
    match idx, h with
    | [i, k], h =>
      cases h with
      | cons hi h => cases h with
        | cons hk h =>
          have hi : i < 4 := hi
          have hk : k < 2 := hk
          interval_cases i <;> interval_cases k <;> exact ⟨_, rfl⟩
    | [], h => cases h
    | [_], h => cases h with | cons _ h => cases h
    | _ :: _ :: _ :: _, h => cases h with | cons _ h => cases h with | cons _ h => cases h
  obtain ⟨c, hc, -, ht⟩ := multipatch_batch_partial (hw := 8)
    (queries := (⟨[0, 1, 2, 3, 10, 11, 12, 13], 0, [4, 2], [2, 1]⟩ : NdArray ℤ))
    (rows := fun i => if i = 0 then [0, 1] else if i = 1 then [2, 3] else if i = 2 then [10, 11] else [12, 13])
    [fun q : List ℤ => q] 2 1 (by intro v hv q hq; simp at hv; subst hv; exact hq) (by decide) (by decide) rfl hv rfl
    (fun i hi => ⟨4, 2, rfl, hi, by interval_cases i <;> rfl, fun k hk => by interval_cases i <;> interval_cases k <;> rfl⟩)
  refine ⟨c, ?_, fun trace hs => ?_⟩
  · rw [← hc]; rfl
  · have h1 := ((ht trace hs).1 0 _ _ rfl [0, 1] (List.Forall₂.cons (by decide) (List.Forall₂.cons (by decide) List.Forall₂.nil))).1
    simp only [List.length_cons, List.length_nil] at h1
    rw [show offset [4, 2] [0, 1] = offset [(0 + 1) * 4, 2] [0, 1] from rfl, h1]
    rfl

/-- The same for `proximities`: a strided view `[5, 1, 5, 1][::2]` holds the resolutions `5, 5`, but the numbers next to each other in
memory are read, and the call raises. -/
theorem resolutions_layout_violates (search : List ℤ → Verbose ℤ) :
    ∃ resolutions : NdArray ℤ, Valid resolutions ∧ resolutions.shape = [2] ∧ resolutions.at [0] = some 5 ∧
      resolutions.at [1] = some 5 ∧ Spec.Accepted [5, 5] ∧
      pyProximities search 2 2 8 Spec.transposed resolutions 1 = none := by
  refine ⟨⟨[5, 1, 5, 1], 0, [2], [2]⟩, ⟨rfl, fun idx h => ?_⟩, rfl, rfl, rfl, Or.inl (by decide), rfl⟩
  match idx, h with
  | [i], h =>
    cases h with
    | cons hi h =>
      have hi : i < 2 := hi
      interval_cases i <;> exact ⟨_, rfl⟩
  | [], h => cases h
  | _ :: _ :: _, h => cases h with | cons _ h => cases h

end Splinepy.Queries
