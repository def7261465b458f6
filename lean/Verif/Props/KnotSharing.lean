import Verif.Model.KnotSharing
import Mathlib.Tactic.Ring
import Mathlib.Data.List.Nodup

/-! C137: splines do not change through calls on other splines. -/

namespace Splinepy.KnotSharing

variable {K : Type} [Field K] [LinearOrder K]

/-! ### Specification -/

/-- The spline a call is made on. -/
def Spec.target : Op K → Option ℕ
  | .new .. => none
  | .copy _ => none
  | .setKvs i _ | .setDegrees i _ | .setCps i _ | .edit i _ _ | .assignObject i _ _ _ | .normalize i | .refine i _ _ => some i
  | .boundary .. => none
  | .evaluate _ => none

/-- The calls after which two splines refer to the same knots: extraction of a boundary, and assignment of a `KnotVector` object. -/
def Spec.Shares : Op K → Prop
  | .boundary .. => True
  | .assignObject .. => True
  | _ => False

/-- As many control points as the knot vectors and degrees of the spline `i` need. -/
def Spec.Complete (s : State K) (i : ℕ) : Prop := ∃ x, s.described i = some x ∧ x.1.length = x.2.1.length ∧ x.2.2 = needed x.1 x.2.1

/-! ### What belongs to an object -/

/-- parameter spaces of an object: the one of the core and the saved one -/
def State.spacesOf (s : State K) (i : ℕ) : List ℕ :=
  match s.objs[i]? with
  | none => []
  | some o => (s.cores[o.core]?).toList.map Core.space ++ (match o.saved with | .space p => [p] | _ => [])

/-- knot vectors an object refers to -/
def State.reach (s : State K) (i : ℕ) : List ℕ := (s.spacesOf i).flatMap fun p => s.spaces.getD p []

/-- knot vectors an object is evaluated with -/
def State.used (s : State K) (i : ℕ) : List ℕ :=
  (((s.objs[i]?).bind fun o => s.cores[o.core]?).bind fun c => s.spaces[c.space]?).getD []

structure Sane (s : State K) : Prop where
  core : ∀ (i : ℕ) (o : Obj K), s.objs[i]? = some o → ∃ c, s.cores[o.core]? = some c
  space : ∀ i, ∀ p ∈ s.spacesOf i, p < s.spaces.length
  ids : ∀ p, ∀ v ∈ s.spaces.getD p [], v < s.kvs.length
  cores : ∀ (i j : ℕ) (o o' : Obj K), i ≠ j → s.objs[i]? = some o → s.objs[j]? = some o' → o.core ≠ o'.core
  spaces : ∀ i j, i ≠ j → ∀ p ∈ s.spacesOf i, p ∉ s.spacesOf j

theorem spacesOf_eq {s : State K} {i : ℕ} {o : Obj K} {c : Core} (ho : s.objs[i]? = some o) (hc : s.cores[o.core]? = some c) :
    s.spacesOf i = c.space :: (match o.saved with | .space p => [p] | _ => []) := by
  simp [State.spacesOf, ho, hc]

theorem described_eq {s : State K} {i : ℕ} {o : Obj K} {c : Core} (ho : s.objs[i]? = some o) (hc : s.cores[o.core]? = some c) :
    s.described i = (s.spaces[c.space]?).map fun ids => (c.degrees, s.read ids, c.ncps) := by simp [State.described, ho, hc]

theorem Sane.lt {s : State K} (h : Sane s) {i : ℕ} {o : Obj K} (ho : s.objs[i]? = some o) : o.core < s.cores.length := by
  obtain ⟨c, hc⟩ := h.core i o ho
  exact (List.getElem?_eq_some_iff.mp hc).1

theorem getD_mem_of {s : State K} {p : ℕ} {ids : List ℕ} (h : s.spaces[p]? = some ids) : s.spaces.getD p [] = ids := by simp [List.getD_eq_getElem?_getD, h]

theorem writeAll_frame : ∀ (ids : List ℕ) (kvs : List (List K)) (s : State K),
    (s.writeAll ids kvs).spaces = s.spaces ∧ (s.writeAll ids kvs).cores = s.cores ∧ (s.writeAll ids kvs).objs = s.objs ∧ (s.writeAll ids kvs).kvs.length = s.kvs.length ∧
      ∀ v, v ∉ ids → (s.writeAll ids kvs).kvs[v]? = s.kvs[v]?
  | [], _, s => by simp [State.writeAll]
  | i :: ids, [], s => by simp [State.writeAll]
  | i :: ids, kv :: kvs, s => by
      obtain ⟨h1, h2, h3, h4, h5⟩ := writeAll_frame ids kvs { s with kvs := s.kvs.set i kv }
      have e : s.writeAll (i :: ids) (kv :: kvs) = State.writeAll { s with kvs := s.kvs.set i kv } ids kvs := rfl
      rw [e]
      refine ⟨h1, h2, h3, by rw [h4, List.length_set], fun v hv => ?_⟩
      rw [h5 v (fun h => hv (List.mem_cons_of_mem _ h))]
      exact List.getElem?_set_ne (fun h => hv (by rw [← h]; exact List.mem_cons_self))

theorem writeAll_read : ∀ (ids : List ℕ) (kvs : List (List K)) (s : State K), ids.Nodup → (∀ v ∈ ids, v < s.kvs.length) → ids.length = kvs.length → (s.writeAll ids kvs).read ids = kvs
  | [], kvs, s, _, _, h => by cases kvs with | nil => rfl | cons => simp at h
  | i :: ids, [], s, _, _, h => by simp at h
  | i :: ids, kv :: kvs, s, hn, hr, h => by
      have e : s.writeAll (i :: ids) (kv :: kvs) = State.writeAll { s with kvs := s.kvs.set i kv } ids kvs := rfl
      have hn' := List.nodup_cons.mp hn
      have h1 := writeAll_read ids kvs { s with kvs := s.kvs.set i kv } hn'.2 (fun v hv => by simpa using hr v (List.mem_cons_of_mem _ hv)) (by simpa using h)
      have h2 := (writeAll_frame ids kvs { s with kvs := s.kvs.set i kv }).2.2.2.2 i hn'.1
      rw [e]
      unfold State.read at h1 ⊢
      rw [List.map_cons, h1, List.getD_eq_getElem?_getD, h2]
      simp [List.getElem?_set_self (hr i List.mem_cons_self)]

/-! The invariant is kept by the parts of calls -/

theorem setObj_objs {s : State K} {i j : ℕ} (o : Obj K) (h : j ≠ i) : (s.setObj i o).objs[j]? = s.objs[j]? := List.getElem?_set_ne (Ne.symm h)

theorem spacesOf_congr {s s' : State K} {j : ℕ} (ho : s'.objs[j]? = s.objs[j]?) (hc : ∀ o, s.objs[j]? = some o → (s'.cores[o.core]?).map Core.space = (s.cores[o.core]?).map Core.space) :
    s'.spacesOf j = s.spacesOf j := by
  unfold State.spacesOf
  rw [ho]
  cases h : s.objs[j]? with
  | none => rfl
  | some o =>
    have := hc o h
    cases h1 : s'.cores[o.core]? <;> cases h2 : s.cores[o.core]? <;> simp_all

/-- the object `i` gets other contents of its own -/
theorem Sane.setObj {s : State K} (h : Sane s) {i : ℕ} {o : Obj K} {o₀ : Obj K} {c : Core} (h0 : s.objs[i]? = some o₀) (hc : s.cores[o.core]? = some c)
    (hcore : o.core = o₀.core ∨ ∀ (j : ℕ) (o' : Obj K), s.objs[j]? = some o' → o'.core ≠ o.core) (hlt : c.space < s.spaces.length)
    (hsp : ∀ p ∈ (c.space :: (match o.saved with | .space p => [p] | _ => [])), p ∈ s.spacesOf i ∨ (p < s.spaces.length ∧ ∀ j, p ∉ s.spacesOf j)) : Sane (s.setObj i o) := by
  have hi : i < s.objs.length := (List.getElem?_eq_some_iff.mp h0).1
  have hself : (s.setObj i o).objs[i]? = some o := by simp [State.setObj, hi]
  have hsi : (s.setObj i o).spacesOf i = (c.space :: (match o.saved with | .space p => [p] | _ => [])) := spacesOf_eq hself hc
  have hso : ∀ j, j ≠ i → (s.setObj i o).spacesOf j = s.spacesOf j := fun j hj => spacesOf_congr (setObj_objs o hj) fun _ _ => rfl
  refine ⟨fun j o' hj => ?_, fun j p hp => ?_, h.ids, fun j k oj ok hjk h1 h2 => ?_, fun j k hjk p hp hq => ?_⟩
  · by_cases e : j = i
    · subst e; rw [hself] at hj; cases hj; exact ⟨c, hc⟩
    · rw [setObj_objs o e] at hj; exact h.core j o' hj
  · by_cases e : j = i
    · subst e; rw [hsi] at hp
      rcases hsp p hp with h' | h'
      · exact h.space _ p h'
      · exact h'.1
    · rw [hso j e] at hp; exact h.space j p hp
  · by_cases e : j = i
    · subst e
      rw [hself] at h1; cases h1
      rw [setObj_objs o (Ne.symm hjk)] at h2
      rcases hcore with hc' | hc'
      · rw [hc']; exact h.cores j k o₀ ok hjk h0 h2
      · exact (hc' k ok h2).symm
    · rw [setObj_objs o e] at h1
      by_cases e' : k = i
      · subst e'
        rw [hself] at h2; cases h2
        rcases hcore with hc' | hc'
        · rw [hc']; exact h.cores j k oj o₀ hjk h1 h0
        · exact hc' j oj h1
      · rw [setObj_objs o e'] at h2; exact h.cores j k oj ok hjk h1 h2
  · by_cases e : j = i
    · subst e
      rw [hsi] at hp; rw [hso k (Ne.symm hjk)] at hq
      rcases hsp p hp with h' | h'
      · exact h.spaces j k hjk p h' hq
      · exact h'.2 k hq
    · rw [hso j e] at hp
      by_cases e' : k = i
      · subst e'
        rw [hsi] at hq
        rcases hsp p hq with h' | h'
        · exact h.spaces j k hjk p hp h'
        · exact h'.2 j hp
      · rw [hso k e'] at hq; exact h.spaces j k hjk p hp hq

/-- new knot vectors, parameter spaces and cores at the end of the lists -/
theorem Sane.append {s : State K} (h : Sane s) (kvs : List (List K)) (ids : List ℕ) (c : Core) (hi : ∀ v ∈ ids, v < s.kvs.length + kvs.length) :
    Sane { s with kvs := s.kvs ++ kvs, spaces := s.spaces ++ [ids], cores := s.cores ++ [c] } ∧
      ∀ j, State.spacesOf { s with kvs := s.kvs ++ kvs, spaces := s.spaces ++ [ids], cores := s.cores ++ [c] } j = s.spacesOf j := by
  have hso : ∀ j, State.spacesOf { s with kvs := s.kvs ++ kvs, spaces := s.spaces ++ [ids], cores := s.cores ++ [c] } j = s.spacesOf j :=
    fun j => spacesOf_congr rfl fun o ho => by rw [List.getElem?_append_left (h.lt ho)]
  refine ⟨⟨fun j o ho => ?_, fun j p hp => ?_, fun p v hv => ?_, h.cores, fun j k hjk p hp => ?_⟩, hso⟩
  · obtain ⟨c', hc'⟩ := h.core j o ho
    exact ⟨c', by simp only; rw [List.getElem?_append_left (h.lt ho), hc']⟩
  · rw [hso] at hp
    have := h.space j p hp
    simp only [List.length_append]; omega
  · simp only [List.getD_eq_getElem?_getD, List.getElem?_append, List.length_append] at hv ⊢
    split at hv
    · have := h.ids p v (by rw [List.getD_eq_getElem?_getD]; exact hv); omega
    · rename_i hp
      rcases Nat.eq_zero_or_pos (p - s.spaces.length) with e | e
      · rw [e] at hv; exact hi v (by simpa using hv)
      · rw [List.getElem?_eq_none (by simp only [List.length_singleton]; omega)] at hv; simp at hv
  · rw [hso] at hp ⊢
    exact h.spaces j k hjk p hp

/-- one more object, with a core and a parameter space of its own -/
theorem Sane.push {s : State K} (h : Sane s) {o : Obj K} {c : Core} (hc : s.cores[o.core]? = some c) (hs : o.saved = .none) (hcore : ∀ (j : ℕ) (o' : Obj K), s.objs[j]? = some o' → o'.core ≠ o.core)
    (hlt : c.space < s.spaces.length) (hsp : ∀ j, c.space ∉ s.spacesOf j) : Sane { s with objs := s.objs ++ [o] } := by
  have hnew : ({ s with objs := s.objs ++ [o] } : State K).objs[s.objs.length]? = some o := by simp
  have hsn : State.spacesOf { s with objs := s.objs ++ [o] } s.objs.length = [c.space] := by rw [spacesOf_eq hnew hc, hs]
  have hold : ∀ j, j < s.objs.length → ({ s with objs := s.objs ++ [o] } : State K).objs[j]? = s.objs[j]? := fun j hj => List.getElem?_append_left hj
  have hso : ∀ j, j < s.objs.length → State.spacesOf { s with objs := s.objs ++ [o] } j = s.spacesOf j := fun j hj => spacesOf_congr (hold j hj) fun _ _ => rfl
  have hrest : ∀ j, s.objs.length < j → ({ s with objs := s.objs ++ [o] } : State K).objs[j]? = none := fun j hj => List.getElem?_eq_none (by simp; omega)
  have hsr : ∀ j, s.objs.length < j → State.spacesOf { s with objs := s.objs ++ [o] } j = [] := fun j hj => by unfold State.spacesOf; rw [hrest j hj]
  refine ⟨fun j o' hj => ?_, fun j p hp => ?_, h.ids, fun j k oj ok hjk h1 h2 => ?_, fun j k hjk p hp hq => ?_⟩
  · rcases lt_trichotomy j s.objs.length with e | e | e
    · rw [hold j e] at hj; exact h.core j o' hj
    · subst e; rw [hnew] at hj; cases hj; exact ⟨c, hc⟩
    · rw [hrest j e] at hj; simp at hj
  · rcases lt_trichotomy j s.objs.length with e | e | e
    · rw [hso j e] at hp; exact h.space j p hp
    · subst e; rw [hsn] at hp; rw [List.mem_singleton.mp hp]; exact hlt
    · rw [hsr j e] at hp; simp at hp
  · rcases lt_trichotomy j s.objs.length with e | e | e
    · rw [hold j e] at h1
      rcases lt_trichotomy k s.objs.length with e' | e' | e'
      · rw [hold k e'] at h2; exact h.cores j k oj ok hjk h1 h2
      · subst e'; rw [hnew] at h2; cases h2; exact hcore j oj h1
      · rw [hrest k e'] at h2; simp at h2
    · subst e; rw [hnew] at h1; cases h1
      rcases lt_trichotomy k s.objs.length with e' | e' | e'
      · rw [hold k e'] at h2; exact (hcore k ok h2).symm
      · exact absurd e'.symm hjk
      · rw [hrest k e'] at h2; simp at h2
    · rw [hrest j e] at h1; simp at h1
  · rcases lt_trichotomy j s.objs.length with e | e | e
    · rw [hso j e] at hp
      rcases lt_trichotomy k s.objs.length with e' | e' | e'
      · rw [hso k e'] at hq; exact h.spaces j k hjk p hp hq
      · subst e'; rw [hsn] at hq; rw [List.mem_singleton.mp hq] at hp; exact hsp j hp
      · rw [hsr k e'] at hq; simp at hq
    · subst e; rw [hsn] at hp; rw [List.mem_singleton.mp hp] at hq
      rcases lt_trichotomy k s.objs.length with e' | e' | e'
      · rw [hso k e'] at hq; exact hsp k hq
      · exact absurd e'.symm hjk
      · rw [hsr k e'] at hq; simp at hq
    · rw [hsr j e] at hp; simp at hp

/-- knot vectors are written -/
theorem Sane.write {s : State K} (h : Sane s) (ids : List ℕ) (kvs : List (List K)) : Sane (s.writeAll ids kvs) := by
  obtain ⟨h1, h2, h3, h4, -⟩ := writeAll_frame ids kvs s
  have hso : ∀ j, (s.writeAll ids kvs).spacesOf j = s.spacesOf j := fun j => spacesOf_congr (by rw [h3]) fun o _ => by rw [h2]
  refine ⟨fun j o ho => ?_, fun j p hp => ?_, fun p v hv => ?_, fun j k oj ok => ?_, fun j k hjk p hp => ?_⟩
  · rw [h3] at ho; rw [h2]; exact h.core j o ho
  · rw [hso] at hp; rw [h1]; exact h.space j p hp
  · rw [h1] at hv; rw [h4]; exact h.ids p v hv
  · rw [h3]; exact h.cores j k oj ok
  · rw [hso] at hp ⊢; exact h.spaces j k hjk p hp

/-- one parameter space refers to other existing knot vectors -/
theorem Sane.setSpace {s : State K} (h : Sane s) (p : ℕ) (ids : List ℕ) (hi : ∀ v ∈ ids, v < s.kvs.length) : Sane { s with spaces := s.spaces.set p ids } := by
  have hso : ∀ j, State.spacesOf { s with spaces := s.spaces.set p ids } j = s.spacesOf j := fun j => spacesOf_congr rfl fun _ _ => rfl
  refine ⟨h.core, fun j q hq => ?_, fun q v hv => ?_, h.cores, fun j k hjk q hq => ?_⟩
  · rw [hso] at hq; simpa using h.space j q hq
  · simp only [List.getD_eq_getElem?_getD] at hv
    by_cases e : p = q
    · subst e
      by_cases hl : p < s.spaces.length
      · rw [List.getElem?_set_self hl] at hv; exact hi v (by simpa using hv)
      · rw [List.getElem?_eq_none (by simpa using hl)] at hv; simp at hv
    · rw [List.getElem?_set_ne e] at hv; exact h.ids q v (by rw [List.getD_eq_getElem?_getD]; exact hv)
  · rw [hso] at hq ⊢; exact h.spaces j k hjk q hq

/-- a core with the same parameter space -/
theorem Sane.setCore {s : State K} (h : Sane s) {k : ℕ} {c c' : Core} (hc : s.cores[k]? = some c) (he : c'.space = c.space) : Sane { s with cores := s.cores.set k c' } := by
  have hk := (List.getElem?_eq_some_iff.mp hc).1
  have hcs : ∀ m : ℕ, ((s.cores.set k c')[m]?).map Core.space = (s.cores[m]?).map Core.space := by
    intro m
    by_cases e : k = m
    · subst e; rw [List.getElem?_set_self hk, hc]; simp [he]
    · rw [List.getElem?_set_ne e]
  have hso : ∀ j, State.spacesOf { s with cores := s.cores.set k c' } j = s.spacesOf j := fun j => spacesOf_congr rfl fun o _ => hcs o.core
  refine ⟨fun j o ho => ?_, fun j p hp => ?_, h.ids, h.cores, fun j m hjm p hp => ?_⟩
  · have h1 := hcs o.core
    obtain ⟨c1, hc1⟩ := h.core j o ho
    rw [hc1] at h1
    exact Option.isSome_iff_exists.mp (by
      cases h2 : (s.cores.set k c')[o.core]? with
      | none => rw [h2] at h1; simp at h1
      | some x => rfl)
  · rw [hso] at hp; exact h.space j p hp
  · rw [hso] at hp ⊢; exact h.spaces j m hjm p hp

/-! What other objects are evaluated with -/

theorem used_eq {s : State K} {i : ℕ} {o : Obj K} {c : Core} (ho : s.objs[i]? = some o) (hc : s.cores[o.core]? = some c) : s.used i = (s.spaces[c.space]?).getD [] := by
  simp [State.used, ho, hc]

theorem described_write {s : State K} (h : Sane s) (ids : List ℕ) (kvs : List (List K)) {j : ℕ} (hd : ∀ v ∈ s.used j, v ∉ ids) : (s.writeAll ids kvs).described j = s.described j := by
  obtain ⟨h1, h2, h3, h4, h5⟩ := writeAll_frame ids kvs s
  cases ho : s.objs[j]? with
  | none => simp [State.described, h3, ho]
  | some o =>
    obtain ⟨c, hc⟩ := h.core j o ho
    rw [described_eq (by rw [h3]; exact ho) (by rw [h2]; exact hc), described_eq ho hc, h1]
    cases hs : s.spaces[c.space]? with
    | none => rfl
    | some l =>
      simp only [Option.map_some, Option.some.injEq, Prod.mk.injEq, true_and, and_true]
      unfold State.read
      refine List.map_congr_left fun v hv => ?_
      rw [List.getD_eq_getElem?_getD, List.getD_eq_getElem?_getD, h5 v (hd v (by rw [used_eq ho hc, hs]; exact hv))]

theorem described_setSpace {s : State K} (h : Sane s) (p : ℕ) (ids : List ℕ) {j : ℕ} (hp : p ∉ s.spacesOf j) : State.described { s with spaces := s.spaces.set p ids } j = s.described j := by
  cases ho : s.objs[j]? with
  | none => simp [State.described, ho]
  | some o =>
    obtain ⟨c, hc⟩ := h.core j o ho
    have e := described_eq (s := { s with spaces := s.spaces.set p ids }) (i := j) ho hc
    have : p ≠ c.space := fun e => hp (by rw [spacesOf_eq ho hc, e]; simp)
    rw [e, described_eq ho hc]
    simp only
    rw [List.getElem?_set_ne this]
    rfl

theorem described_setObj {s : State K} {i j : ℕ} (o : Obj K) (h : j ≠ i) : (s.setObj i o).described j = s.described j := by
  unfold State.described
  rw [setObj_objs o h]
  rfl

theorem described_setCore {s : State K} {k : ℕ} (c : Core) {j : ℕ} (h : ∀ o, s.objs[j]? = some o → o.core ≠ k) : State.described { s with cores := s.cores.set k c } j = s.described j := by
  unfold State.described
  simp only
  cases ho : s.objs[j]? with
  | none => rfl
  | some o =>
    simp only [Option.bind_some]
    rw [List.getElem?_set_ne (Ne.symm (h o ho))]
    rfl

theorem described_append {s : State K} (h : Sane s) (kvs : List (List K)) (ids : List ℕ) (c : Core) (j : ℕ) :
    State.described { s with kvs := s.kvs ++ kvs, spaces := s.spaces ++ [ids], cores := s.cores ++ [c] } j = s.described j := by
  cases ho : s.objs[j]? with
  | none => simp [State.described, ho]
  | some o =>
    obtain ⟨c', hc⟩ := h.core j o ho
    have hp : c'.space < s.spaces.length := h.space j _ (by rw [spacesOf_eq ho hc]; simp)
    have e := described_eq (s := { s with kvs := s.kvs ++ kvs, spaces := s.spaces ++ [ids], cores := s.cores ++ [c] }) (i := j) (c := c') ho
      (by rw [List.getElem?_append_left (h.lt ho)]; exact hc)
    rw [e, described_eq ho hc]
    simp only
    rw [List.getElem?_append_left hp]
    obtain ⟨l, hs⟩ : ∃ l, s.spaces[c'.space]? = some l := ⟨_, List.getElem?_eq_getElem hp⟩
    rw [hs]
    simp only [Option.map_some, Option.some.injEq, Prod.mk.injEq, true_and, and_true]
    unfold State.read
    refine List.map_congr_left fun v hv => ?_
    simp only [List.getD_eq_getElem?_getD]
    rw [List.getElem?_append_left (h.ids c'.space v (by rw [getD_mem_of hs]; exact hv))]

theorem described_push {s : State K} (o : Obj K) {j : ℕ} (h : j < s.objs.length) : State.described { s with objs := s.objs ++ [o] } j = s.described j := by
  unfold State.described
  simp only
  rw [List.getElem?_append_left h]
  rfl

/-- the getter of the knot vectors -/
theorem getSpace_ok {s : State K} (h : Sane s) {i : ℕ} {o : Obj K} {c : Core} (ho : s.objs[i]? = some o) (hc : s.cores[o.core]? = some c) :
    Sane (s.getSpace i o c).1 ∧ (s.getSpace i o c).2 ∈ s.spacesOf i ∧ (s.getSpace i o c).1.kvs = s.kvs ∧ (s.getSpace i o c).1.spaces = s.spaces ∧
      (s.getSpace i o c).1.cores = s.cores ∧ (s.getSpace i o c).1.objs = s.objs.set i ⟨o.core, .space (s.getSpace i o c).2⟩ ∧
      (∀ j, ∀ p ∈ (s.getSpace i o c).1.spacesOf j, p ∈ s.spacesOf j) ∧ (∀ j, (s.getSpace i o c).1.described j = s.described j) ∧ ∀ j, (s.getSpace i o c).1.used j = s.used j := by
  have hi : i < s.objs.length := (List.getElem?_eq_some_iff.mp ho).1
  have hcs : c.space ∈ s.spacesOf i := by rw [spacesOf_eq ho hc]; simp
  have hself : (s.setObj i { o with saved := .space c.space }).objs[i]? = some { o with saved := .space c.space } := by simp [State.setObj, hi]
  have key : Sane (s.setObj i { o with saved := .space c.space }) ∧ c.space ∈ s.spacesOf i ∧
      (s.setObj i { o with saved := .space c.space }).kvs = s.kvs ∧ (s.setObj i { o with saved := .space c.space }).spaces = s.spaces ∧
      (s.setObj i { o with saved := .space c.space }).cores = s.cores ∧ (s.setObj i { o with saved := .space c.space }).objs = s.objs.set i ⟨o.core, .space c.space⟩ ∧
      (∀ j, ∀ p ∈ (s.setObj i { o with saved := .space c.space }).spacesOf j, p ∈ s.spacesOf j) ∧ (∀ j, (s.setObj i { o with saved := .space c.space }).described j = s.described j) ∧
      ∀ j, (s.setObj i { o with saved := .space c.space }).used j = s.used j := by
    refine ⟨h.setObj ho hc (Or.inl rfl) (h.space i _ hcs) (fun p hp => Or.inl ?_), hcs, rfl, rfl, rfl, rfl, fun j p hp => ?_, fun j => ?_, fun j => ?_⟩
    · simp only [List.mem_cons, List.not_mem_nil, or_false, or_self] at hp
      rw [hp]; exact hcs
    · by_cases e : j = i
      · subst e
        have := spacesOf_eq hself hc
        rw [this] at hp
        simp only [List.mem_cons, List.not_mem_nil, or_false, or_self] at hp
        rw [hp]; exact hcs
      · rwa [spacesOf_congr (setObj_objs _ e) fun _ _ => rfl] at hp
    · by_cases e : j = i
      · subst e
        have := described_eq hself hc
        rw [this, described_eq ho hc]
        rfl
      · exact described_setObj _ e
    · by_cases e : j = i
      · subst e
        have := used_eq hself hc
        rw [this, used_eq ho hc]
        rfl
      · unfold State.used
        rw [setObj_objs _ e]
        rfl
  have key2 : ∀ p, o.saved = .space p → Sane s ∧ p ∈ s.spacesOf i ∧ s.kvs = s.kvs ∧ s.spaces = s.spaces ∧ s.cores = s.cores ∧ s.objs = s.objs.set i ⟨o.core, .space p⟩ ∧
      (∀ j, ∀ p ∈ s.spacesOf j, p ∈ s.spacesOf j) ∧ (∀ j, s.described j = s.described j) ∧ ∀ j, s.used j = s.used j := by
    intro p hs
    refine ⟨h, ?_, rfl, rfl, rfl, ?_, fun _ _ hp => hp, fun _ => rfl, fun _ => rfl⟩
    · rw [spacesOf_eq ho hc, hs]; simp
    · rw [← hs]
      have e : (⟨o.core, o.saved⟩ : Obj K) = s.objs[i] := (List.getElem?_eq_some_iff.mp ho).2.symm
      rw [e, List.set_getElem_self]
  unfold State.getSpace
  cases hs : o.saved with
  | none => exact key
  | arrays l => exact key
  | space p => exact key2 p hs

theorem mem_reach {s : State K} {i p : ℕ} {ids : List ℕ} (hp : p ∈ s.spacesOf i) (h : s.spaces[p]? = some ids) {v : ℕ} (hv : v ∈ ids) : v ∈ s.reach i :=
  List.mem_flatMap.mpr ⟨p, hp, by rw [getD_mem_of h]; exact hv⟩

theorem Sane.space_ne {s : State K} (h : Sane s) (j : ℕ) : s.spaces.length ∉ s.spacesOf j := fun hp => absurd (h.space j _ hp) (lt_irrefl _)

theorem Sane.core_ne {s : State K} (h : Sane s) (j : ℕ) (o : Obj K) (ho : s.objs[j]? = some o) : o.core ≠ s.cores.length := ne_of_lt (h.lt ho)

theorem fresh_ok {s : State K} (h : Sane s) (degrees : List ℕ) (kvs : List (List K)) (n : ℕ) :
    Sane (s.fresh degrees kvs n) ∧ (∀ j, (s.fresh degrees kvs n).spacesOf j = s.spacesOf j) ∧ ∀ j, (s.fresh degrees kvs n).described j = s.described j := by
  have := h.append kvs (List.range' s.kvs.length kvs.length) ⟨s.spaces.length, degrees, n⟩ (fun v hv => by rw [List.mem_range'_1] at hv; omega)
  exact ⟨this.1, this.2, described_append h _ _ _⟩

theorem construct_ok {s : State K} (h : Sane s) (degrees : List ℕ) (kvs : List (List K)) (n : ℕ) :
    Sane (s.construct degrees kvs n).state ∧ s.objs.length ≤ (s.construct degrees kvs n).state.objs.length ∧
      ∀ j < s.objs.length, (s.construct degrees kvs n).state.described j = s.described j := by
  unfold State.construct
  split
  · obtain ⟨h1, h2, h3⟩ := fresh_ok h degrees kvs n
    refine ⟨h1.push (c := ⟨s.spaces.length, degrees, n⟩) (by simp [State.fresh]) rfl (fun j o ho => h.core_ne j o ho) (by simp [State.fresh]) (fun j => by rw [h2]; exact h.space_ne j),
      by simp, fun j hj => ?_⟩
    rw [← h3 j]
    exact described_push (s := s.fresh degrees kvs n) _ hj
  · exact ⟨h, le_refl _, fun _ _ => rfl⟩

theorem newCore_ok {s : State K} (h : Sane s) {i : ℕ} {o : Obj K} (ho : s.objs[i]? = some o) (saved : Saved K) (hs : ∀ p, saved = .space p → p ∈ s.spacesOf i)
    (degrees : List ℕ) (kvs : List (List K)) (n : ℕ) :
    Sane (s.newCore i saved degrees kvs n).state ∧ s.objs.length ≤ (s.newCore i saved degrees kvs n).state.objs.length ∧
      ∀ j, j ≠ i → (s.newCore i saved degrees kvs n).state.described j = s.described j := by
  unfold State.newCore
  split
  · obtain ⟨h1, h2, h3⟩ := fresh_ok h degrees kvs n
    refine ⟨h1.setObj (o := ⟨s.cores.length, saved⟩) (c := ⟨s.spaces.length, degrees, n⟩) ho (by simp [State.fresh]) (Or.inr fun j o ho => h.core_ne j o ho) (by simp [State.fresh])
      (fun p hp => ?_), by simp [State.setObj, State.fresh], fun j hj => ?_⟩
    · rw [List.mem_cons] at hp
      rcases hp with rfl | hp
      · exact Or.inr ⟨by simp [State.fresh], fun j => by rw [h2]; exact h.space_ne j⟩
      · left
        rw [h2]
        cases hsv : saved with
        | none => rw [hsv] at hp; simp at hp
        | arrays l => rw [hsv] at hp; simp at hp
        | space q => rw [hsv] at hp; simp only [List.mem_singleton] at hp; rw [hp]; exact hs q hsv
    · rw [described_setObj _ hj, h3]
  · exact ⟨h, le_refl _, fun _ _ => rfl⟩

/-- A call on one spline changes what another spline is evaluated with only if the two share a knot vector. -/
theorem step_ok {s : State K} (h : Sane s) {op : Op K} {r : Res K} (hr : step s op = some r) : Sane r.state ∧ s.objs.length ≤ r.state.objs.length ∧
    ∀ j < s.objs.length, Spec.target op ≠ some j → (∀ i, Spec.target op = some i → ∀ v ∈ s.used j, v ∉ s.reach i) → r.state.described j = s.described j := by
  cases op with
  | new degrees kvs n =>
    simp only [step, Option.some.injEq] at hr
    subst hr
    obtain ⟨h1, h2, h3⟩ := construct_ok h degrees kvs n
    exact ⟨h1, h2, fun j hj _ _ => h3 j hj⟩
  | copy i =>
    simp only [step, Option.bind_eq_some_iff, Option.ite_none_left_eq_some, Option.some.injEq] at hr
    obtain ⟨x, -, -, rfl⟩ := hr
    obtain ⟨h1, h2, h3⟩ := construct_ok h x.1 x.2.1 x.2.2
    exact ⟨h1, h2, fun j hj _ _ => h3 j hj⟩
  | setKvs i kvs =>
    simp only [step, Option.bind_eq_some_iff, Option.map_eq_some_iff] at hr
    obtain ⟨o, ho, c, hc, rfl⟩ := hr
    split
    · exact ⟨h, le_refl _, fun _ _ _ _ => rfl⟩
    · have hi : i < s.objs.length := (List.getElem?_eq_some_iff.mp ho).1
      have hcs : c.space ∈ s.spacesOf i := by rw [spacesOf_eq ho hc]; simp
      have h1 := h.setObj (o := { o with saved := .arrays kvs }) ho hc (Or.inl rfl) (h.space i _ hcs) (fun p hp => Or.inl (by simp only [List.mem_singleton] at hp; rw [hp]; exact hcs))
      obtain ⟨h2, h3, h4⟩ := newCore_ok h1 (i := i) (o := { o with saved := .arrays kvs }) (by simp [State.setObj, hi]) (.arrays kvs) (fun p hp => by simp at hp) c.degrees kvs c.ncps
      refine ⟨h2, le_trans (by simp [State.setObj]) h3, fun j hj ht _ => ?_⟩
      have hj : j ≠ i := fun e => ht (by simp [Spec.target, e])
      rw [h4 j hj, described_setObj _ hj]
  | setDegrees i degrees =>
    simp only [step, Option.bind_eq_some_iff, Option.map_eq_some_iff] at hr
    obtain ⟨o, ho, c, hc, ids, hids, rfl⟩ := hr
    obtain ⟨g1, g2, g3, g4, g5, g6, g7, g8, g9⟩ := getSpace_ok h ho hc
    have hi : i < s.objs.length := (List.getElem?_eq_some_iff.mp ho).1
    have ho' : (s.getSpace i o c).1.objs[i]? = some ⟨o.core, .space (s.getSpace i o c).2⟩ := by rw [g6]; simp [hi]
    obtain ⟨h2, h3, h4⟩ := newCore_ok g1 ho' (.space (s.getSpace i o c).2) (fun p hp => by
      cases hp; rw [spacesOf_eq ho' (by rw [g5]; exact hc)]; simp) degrees ((s.getSpace i o c).1.read ids) c.ncps
    refine ⟨h2, le_trans (by rw [g6]; simp) h3, fun j hj ht _ => ?_⟩
    have hj : j ≠ i := fun e => ht (by simp [Spec.target, e])
    rw [h4 j hj, g8]
  | setCps i n =>
    simp only [step, Option.bind_eq_some_iff, Option.map_eq_some_iff] at hr
    obtain ⟨o, ho, c, hc, ids, hids, rfl⟩ := hr
    obtain ⟨g1, g2, g3, g4, g5, g6, g7, g8, g9⟩ := getSpace_ok h ho hc
    have hi : i < s.objs.length := (List.getElem?_eq_some_iff.mp ho).1
    have ho' : (s.getSpace i o c).1.objs[i]? = some ⟨o.core, .space (s.getSpace i o c).2⟩ := by rw [g6]; simp [hi]
    obtain ⟨h2, h3, h4⟩ := newCore_ok g1 ho' (.space (s.getSpace i o c).2) (fun p hp => by
      cases hp; rw [spacesOf_eq ho' (by rw [g5]; exact hc)]; simp) c.degrees ((s.getSpace i o c).1.read ids) n
    refine ⟨h2, le_trans (by rw [g6]; simp) h3, fun j hj ht _ => ?_⟩
    have hj : j ≠ i := fun e => ht (by simp [Spec.target, e])
    rw [h4 j hj, g8]
  | edit i d kv =>
    simp only [step, Option.bind_eq_some_iff, Option.map_eq_some_iff] at hr
    obtain ⟨o, ho, c, hc, ids, hids, rfl⟩ := hr
    obtain ⟨g1, g2, g3, g4, g5, g6, g7, g8, g9⟩ := getSpace_ok h ho hc
    have hl : s.objs.length ≤ (s.getSpace i o c).1.objs.length := by rw [g6]; simp
    split
    · exact ⟨g1, hl, fun j _ _ _ => g8 j⟩
    · rename_i v hv
      split
      · exact ⟨g1, hl, fun j _ _ _ => g8 j⟩
      · refine ⟨g1.write [v] [kv], by rw [(writeAll_frame [v] [kv] _).2.2.1]; exact hl, fun j hj _ hd => ?_⟩
        rw [← g8 j]
        refine described_write g1 _ _ fun w hw hw' => ?_
        rw [g9] at hw
        rw [List.mem_singleton] at hw'
        rw [hw'] at hw
        rw [g4] at hids
        exact hd i rfl v hw (mem_reach g2 hids (List.mem_of_getElem? hv))
  | assignObject i d j₀ e =>
    simp only [step, Option.bind_eq_some_iff, Option.map_eq_some_iff] at hr
    obtain ⟨o, ho, c, hc, o', ho', c', hc', ids, hids, ids', hids', rfl⟩ := hr
    obtain ⟨g1, g2, g3, g4, g5, g6, g7, g8, g9⟩ := getSpace_ok h ho hc
    obtain ⟨k1, k2, k3, k4, k5, k6, k7, k8, k9⟩ := getSpace_ok g1 ho' hc'
    have hl : s.objs.length ≤ ((s.getSpace i o c).1.getSpace j₀ o' c').1.objs.length := by rw [k6, List.length_set, g6, List.length_set]
    split
    · rename_i v w hv hw
      split
      · exact ⟨k1, hl, fun j _ _ _ => by rw [k8, g8]⟩
      · refine ⟨k1.setSpace _ _ fun x hx => ?_, hl, fun j hj ht _ => ?_⟩
        · rcases List.mem_or_eq_of_mem_set hx with hx | rfl
          · exact k1.ids (s.getSpace i o c).2 x (by rw [getD_mem_of hids]; exact hx)
          · exact k1.ids _ x (by rw [getD_mem_of hids']; exact List.mem_of_getElem? hw)
        · rw [described_setSpace k1 _ _ fun hp => ?_, k8, g8]
          have hj : i ≠ j := fun e => ht (by simp [Spec.target, e])
          exact h.spaces i j hj _ g2 (g7 j _ (k7 j _ hp))
    · exact ⟨k1, hl, fun j _ _ _ => by rw [k8, g8]⟩
  | normalize i =>
    simp only [step, Option.bind_eq_some_iff, Option.map_eq_some_iff] at hr
    obtain ⟨o, ho, c, hc, ids, hids, rfl⟩ := hr
    obtain ⟨g1, g2, g3, g4, g5, g6, g7, g8, g9⟩ := getSpace_ok h ho hc
    refine ⟨g1.write _ _, by rw [(writeAll_frame _ _ _).2.2.1, g6]; simp, fun j hj _ hd => ?_⟩
    rw [← g8 j]
    refine described_write g1 _ _ fun w hw hw' => ?_
    rw [g9] at hw
    rw [g4] at hids
    exact hd i rfl w hw (mem_reach g2 hids hw')
  | refine i degrees kvs =>
    simp only [step, Option.bind_eq_some_iff, Option.ite_none_left_eq_some] at hr
    obtain ⟨o, ho, c, hc, ids, hids, -, hr⟩ := hr
    split at hr
    · cases hr; exact ⟨h, le_refl _, fun _ _ _ _ => rfl⟩
    · simp only [Option.some.injEq] at hr
      subst hr
      have hi : i < s.objs.length := (List.getElem?_eq_some_iff.mp ho).1
      have hk := (List.getElem?_eq_some_iff.mp hc).1
      have hcs : c.space ∈ s.spacesOf i := by rw [spacesOf_eq ho hc]; simp
      have h1 := h.setCore (c' := ⟨c.space, degrees, needed degrees kvs⟩) hc rfl
      have h2 := h1.write ids kvs
      obtain ⟨w1, w2, w3, w4, w5⟩ := writeAll_frame ids kvs { s with cores := s.cores.set o.core ⟨c.space, degrees, needed degrees kvs⟩ }
      have hoi : (State.writeAll { s with cores := s.cores.set o.core ⟨c.space, degrees, needed degrees kvs⟩ } ids kvs).objs[i]? = some o := by rw [w3]; exact ho
      have hci : (State.writeAll { s with cores := s.cores.set o.core ⟨c.space, degrees, needed degrees kvs⟩ } ids kvs).cores[o.core]? = some ⟨c.space, degrees, needed degrees kvs⟩ := by
        rw [w2]; simp [hk]
      refine ⟨h2.setObj (o := ⟨o.core, .none⟩) hoi hci (Or.inl rfl) (by rw [w1]; exact h.space i _ hcs) (fun p hp => Or.inl ?_), by simp [State.setObj, w3], fun j hj ht hd => ?_⟩
      · simp only [List.mem_singleton] at hp
        rw [hp, spacesOf_eq hoi hci]; simp
      · have hj : j ≠ i := fun e => ht (by simp [Spec.target, e])
        have hoc : ∀ oj, s.objs[j]? = some oj → oj.core ≠ o.core := fun oj hoj => h.cores j i oj o hj hoj ho
        rw [described_setObj _ hj, described_write h1 _ _ fun w hw hw' => ?_, described_setCore _ hoc]
        refine hd i rfl w ?_ (mem_reach hcs hids hw')
        unfold State.used at hw ⊢
        cases hoj : s.objs[j]? with
        | none => simp [hoj] at hw
        | some oj =>
          simp only [hoj, Option.bind_some] at hw ⊢
          rwa [List.getElem?_set_ne (Ne.symm (hoc oj hoj))] at hw
  | boundary i b =>
    simp only [step, Option.bind_eq_some_iff] at hr
    obtain ⟨o, ho, c, hc, ids, hids, hr⟩ := hr
    split at hr
    · cases hr; exact ⟨h, le_refl _, fun _ _ _ _ => rfl⟩
    · split at hr
      · cases hr
      · simp only [Option.some.injEq] at hr
        subst hr
        have hin : ∀ v ∈ ids.eraseIdx (b / 2), v < s.kvs.length + ([] : List (List K)).length := fun v hv =>
          h.ids c.space v (by rw [getD_mem_of hids]; exact List.mem_of_mem_eraseIdx hv)
        obtain ⟨h1, h2⟩ := h.append [] (ids.eraseIdx (b / 2)) ⟨s.spaces.length, c.degrees.eraseIdx (b / 2), needed (c.degrees.eraseIdx (b / 2)) (s.read (ids.eraseIdx (b / 2)))⟩ hin
        have h3 := described_append h [] (ids.eraseIdx (b / 2)) ⟨s.spaces.length, c.degrees.eraseIdx (b / 2), needed (c.degrees.eraseIdx (b / 2)) (s.read (ids.eraseIdx (b / 2)))⟩
        simp only [List.append_nil] at h1 h2 h3
        refine ⟨h1.push (o := ⟨s.cores.length, .none⟩) (c := ⟨s.spaces.length, c.degrees.eraseIdx (b / 2), needed (c.degrees.eraseIdx (b / 2)) (s.read (ids.eraseIdx (b / 2)))⟩) (by simp) rfl
          (fun j oj hoj => h.core_ne j oj hoj) (by simp) (fun j => by rw [h2]; exact h.space_ne j), by simp, fun j hj _ _ => ?_⟩
        rw [← h3 j]
        exact described_push (s := { s with spaces := s.spaces ++ [ids.eraseIdx (b / 2)], cores := s.cores ++ [⟨s.spaces.length, c.degrees.eraseIdx (b / 2),
          needed (c.degrees.eraseIdx (b / 2)) (s.read (ids.eraseIdx (b / 2)))⟩] }) _ hj
  | evaluate i =>
    simp only [step, Option.bind_eq_some_iff, Option.ite_none_left_eq_some, Option.some.injEq] at hr
    obtain ⟨x, -, -, rfl⟩ := hr
    exact ⟨h, le_refl _, fun _ _ _ _ => rfl⟩

/-! Histories without sharing -/

/-- no knot vector occurs twice, and all splines have the control points they need -/
structure Apart (s : State K) : Prop where
  sane : Sane s
  nodup : s.spaces.flatten.Nodup
  complete : ∀ i < s.objs.length, Spec.Complete s i

theorem needed_congr : ∀ (degrees : List ℕ) {kvs kvs' : List (List K)}, kvs.map List.length = kvs'.map List.length → needed degrees kvs = needed degrees kvs'
  | [], _, _, _ => rfl
  | d :: ds, [], [], _ => rfl
  | d :: ds, [], b :: l, h => by simp at h
  | d :: ds, b :: l, [], h => by simp at h
  | d :: ds, a :: l, b :: l', h => by
      simp only [List.map_cons, List.cons.injEq] at h
      have := needed_congr ds h.2
      unfold needed at this ⊢
      simp only [List.zip_cons_cons, List.map_cons, List.prod_cons, this, h.1]

theorem writeAll_lengths : ∀ (ids : List ℕ) (kvs : List (List K)) (s : State K), (∀ e ∈ ids.zip kvs, (s.kvs.getD e.1 []).length = e.2.length) →
    ∀ v, ((s.writeAll ids kvs).kvs.getD v []).length = (s.kvs.getD v []).length
  | [], _, s, _, v => by simp [State.writeAll]
  | i :: ids, [], s, _, v => by simp [State.writeAll]
  | i :: ids, kv :: kvs, s, h, v => by
      have e : s.writeAll (i :: ids) (kv :: kvs) = State.writeAll { s with kvs := s.kvs.set i kv } ids kvs := rfl
      have h0 := h (i, kv) (by simp)
      have h1 : ∀ v, (((s.kvs.set i kv)).getD v []).length = (s.kvs.getD v []).length := by
        intro v
        simp only [List.getD_eq_getElem?_getD] at h0 ⊢
        by_cases hv : i = v
        · subst hv
          by_cases hl : i < s.kvs.length
          · rw [List.getElem?_set_self hl, h0]; rfl
          · rw [List.getElem?_eq_none (by simpa using hl), List.getElem?_eq_none (by simpa using hl)]
        · rw [List.getElem?_set_ne hv]
      rw [e, writeAll_lengths ids kvs { s with kvs := s.kvs.set i kv } (fun x hx => by rw [h1]; exact h x (by simp only [List.zip_cons_cons]; exact List.mem_cons_of_mem _ hx)) v]
      exact h1 v

theorem write_complete {s : State K} (h : Sane s) (ids : List ℕ) (kvs : List (List K)) (hl : ∀ e ∈ ids.zip kvs, (s.kvs.getD e.1 []).length = e.2.length) {j : ℕ}
    (hc : Spec.Complete s j) : Spec.Complete (s.writeAll ids kvs) j := by
  obtain ⟨w1, w2, w3, w4, w5⟩ := writeAll_frame ids kvs s
  obtain ⟨x, hx, hx1, hx2⟩ := hc
  unfold State.described at hx
  simp only [Option.bind_eq_some_iff, Option.map_eq_some_iff] at hx
  obtain ⟨o, ho, c, hc, l, hl', rfl⟩ := hx
  have hm : ((s.writeAll ids kvs).read l).map List.length = (s.read l).map List.length := by
    simp only [State.read, List.map_map]
    exact List.map_congr_left fun v _ => writeAll_lengths ids kvs s hl v
  refine ⟨(c.degrees, (s.writeAll ids kvs).read l, c.ncps), ?_, ?_, ?_⟩
  · rw [described_eq (by rw [w3]; exact ho) (by rw [w2]; exact hc), w1, hl']; rfl
  · simpa [State.read] using hx1
  · rw [needed_congr _ hm]; exact hx2

theorem Apart.disjoint {s : State K} (h : Apart s) {p q : ℕ} (hpq : p ≠ q) {v : ℕ} (hv : v ∈ s.spaces.getD p []) : v ∉ s.spaces.getD q [] := by
  intro hw
  have hd := (List.nodup_flatten.mp h.nodup).2
  rw [List.pairwise_iff_getElem] at hd
  have hp : p < s.spaces.length := by
    by_contra hc
    rw [List.getD_eq_getElem?_getD, List.getElem?_eq_none (by omega)] at hv
    simp at hv
  have hq : q < s.spaces.length := by
    by_contra hc
    rw [List.getD_eq_getElem?_getD, List.getElem?_eq_none (by omega)] at hw
    simp at hw
  rw [List.getD_eq_getElem?_getD, List.getElem?_eq_getElem hp, Option.getD_some] at hv
  rw [List.getD_eq_getElem?_getD, List.getElem?_eq_getElem hq, Option.getD_some] at hw
  rcases lt_or_gt_of_ne hpq with e | e
  · exact hd p q hp hq e hv hw
  · exact hd q p hq hp e hw hv

theorem used_sub {s : State K} (h : Sane s) {j v : ℕ} (hv : v ∈ s.used j) : ∃ p ∈ s.spacesOf j, v ∈ s.spaces.getD p [] := by
  cases ho : s.objs[j]? with
  | none => simp [State.used, ho] at hv
  | some o =>
    obtain ⟨c, hc⟩ := h.core j o ho
    refine ⟨c.space, by rw [spacesOf_eq ho hc]; simp, ?_⟩
    rw [used_eq ho hc] at hv
    rwa [List.getD_eq_getElem?_getD]

theorem Apart.unshared {s : State K} (h : Apart s) {i j : ℕ} (hij : i ≠ j) : ∀ v ∈ s.used j, v ∉ s.reach i := by
  intro v hv hw
  obtain ⟨q, hq, hv⟩ := used_sub h.sane hv
  obtain ⟨p, hp, hw⟩ := List.mem_flatMap.mp hw
  have hpq : p ≠ q := fun e => h.sane.spaces i j hij p hp (by rw [e]; exact hq)
  exact h.disjoint hpq hw hv

theorem fresh_nodup {s : State K} (h : Apart s) (degrees : List ℕ) (kvs : List (List K)) (n : ℕ) : (s.fresh degrees kvs n).spaces.flatten.Nodup := by
  simp only [State.fresh, List.flatten_append, List.flatten_cons, List.flatten_nil, List.append_nil]
  refine List.Nodup.append h.nodup List.nodup_range' fun v hv hw => ?_
  obtain ⟨l, hl, hv⟩ := List.mem_flatten.mp hv
  obtain ⟨p, hp⟩ := List.mem_iff_getElem?.mp hl
  have := h.sane.ids p v (by rw [getD_mem_of hp]; exact hv)
  rw [List.mem_range'_1] at hw
  omega

theorem fresh_read (s : State K) (degrees : List ℕ) (kvs : List (List K)) (n : ℕ) : (s.fresh degrees kvs n).read (List.range' s.kvs.length kvs.length) = kvs := by
  unfold State.read
  refine List.ext_getElem (by simp) fun i h1 h2 => ?_
  simp [State.fresh, List.getElem?_append_right, h2]

theorem accepts_complete {degrees : List ℕ} {kvs : List (List K)} {n : ℕ} (h : accepts degrees kvs n = true) : degrees.length = kvs.length ∧ n = needed degrees kvs := by
  simp only [accepts, Bool.and_eq_true, decide_eq_true_eq] at h
  exact ⟨h.1.1.1.symm, h.2⟩

theorem complete_of_described {s s' : State K} {j : ℕ} (h : s'.described j = s.described j) (hc : Spec.Complete s j) : Spec.Complete s' j := by
  obtain ⟨x, hx, r⟩ := hc
  exact ⟨x, by rw [h, hx], r⟩

theorem construct_apart {s : State K} (h : Apart s) (degrees : List ℕ) (kvs : List (List K)) (n : ℕ) : Apart (s.construct degrees kvs n).state := by
  obtain ⟨h1, h2, h3⟩ := construct_ok h.sane degrees kvs n
  refine ⟨h1, ?_, fun i hi => ?_⟩
  · unfold State.construct
    split
    · exact fresh_nodup h degrees kvs n
    · exact h.nodup
  · by_cases e : i < s.objs.length
    · exact complete_of_described (h3 i e) (h.complete i e)
    · unfold State.construct at hi ⊢
      split at hi
      · rename_i ha
        rw [if_pos ha]
        simp only [List.length_append, List.length_singleton] at hi
        have : i = s.objs.length := by omega
        subst this
        have hd := described_eq (s := { s.fresh degrees kvs n with objs := s.objs ++ [⟨s.cores.length, .none⟩] }) (i := s.objs.length) (o := ⟨s.cores.length, .none⟩)
          (c := ⟨s.spaces.length, degrees, n⟩) (by simp) (by simp [State.fresh])
        refine ⟨(degrees, kvs, n), ?_, accepts_complete ha⟩
        rw [hd]
        have := fresh_read s degrees kvs n
        simp only [State.fresh, State.read, List.getD_eq_getElem?_getD] at this ⊢
        simp [this]
      · exact absurd hi e

theorem newCore_apart {s : State K} (h : Apart s) {i : ℕ} {o : Obj K} (ho : s.objs[i]? = some o) (saved : Saved K) (hs : ∀ p, saved = .space p → p ∈ s.spacesOf i)
    (degrees : List ℕ) (kvs : List (List K)) (n : ℕ) : Apart (s.newCore i saved degrees kvs n).state := by
  obtain ⟨h1, h2, h3⟩ := newCore_ok h.sane ho saved hs degrees kvs n
  have hi : i < s.objs.length := (List.getElem?_eq_some_iff.mp ho).1
  refine ⟨h1, ?_, fun j hj => ?_⟩
  · unfold State.newCore
    split
    · exact fresh_nodup h degrees kvs n
    · exact h.nodup
  · have hjl : j < s.objs.length := by
      unfold State.newCore at hj
      split at hj
      · simpa [State.setObj, State.fresh] using hj
      · exact hj
    by_cases e : j = i
    · subst e
      unfold State.newCore
      split
      · rename_i ha
        have hd := described_eq (s := (s.fresh degrees kvs n).setObj j ⟨s.cores.length, saved⟩) (i := j) (o := ⟨s.cores.length, saved⟩)
          (c := ⟨s.spaces.length, degrees, n⟩) (by simp [State.setObj, State.fresh, hi]) (by simp [State.setObj, State.fresh])
        refine ⟨(degrees, kvs, n), ?_, accepts_complete ha⟩
        rw [hd]
        have := fresh_read s degrees kvs n
        simp only [State.fresh, State.read, State.setObj, List.getD_eq_getElem?_getD] at this ⊢
        simp [this]
      · exact h.complete j hjl
    · exact complete_of_described (h3 j e) (h.complete j hjl)

theorem getSpace_apart {s : State K} (h : Apart s) {i : ℕ} {o : Obj K} {c : Core} (ho : s.objs[i]? = some o) (hc : s.cores[o.core]? = some c) : Apart (s.getSpace i o c).1 := by
  obtain ⟨g1, g2, g3, g4, g5, g6, g7, g8, g9⟩ := getSpace_ok h.sane ho hc
  exact ⟨g1, by rw [g4]; exact h.nodup, fun j hj => complete_of_described (g8 j) (h.complete j (by rw [g6] at hj; simpa using hj))⟩

/-- calls that share nothing keep everything apart -/
theorem step_apart {s : State K} (h : Apart s) {op : Op K} (hop : ¬ Spec.Shares op) {r : Res K} (hr : step s op = some r) : Apart r.state := by
  have hok := step_ok h.sane hr
  cases op with
  | new degrees kvs n =>
    simp only [step, Option.some.injEq] at hr
    subst hr
    exact construct_apart h degrees kvs n
  | copy i =>
    simp only [step, Option.bind_eq_some_iff, Option.ite_none_left_eq_some, Option.some.injEq] at hr
    obtain ⟨x, -, -, rfl⟩ := hr
    exact construct_apart h _ _ _
  | setKvs i kvs =>
    simp only [step, Option.bind_eq_some_iff, Option.map_eq_some_iff] at hr
    obtain ⟨o, ho, c, hc, rfl⟩ := hr
    split
    · exact h
    · have hi : i < s.objs.length := (List.getElem?_eq_some_iff.mp ho).1
      have hcs : c.space ∈ s.spacesOf i := by rw [spacesOf_eq ho hc]; simp
      have h1 := h.sane.setObj (o := { o with saved := .arrays kvs }) ho hc (Or.inl rfl) (h.sane.space i _ hcs)
        (fun p hp => Or.inl (by simp only [List.mem_singleton] at hp; rw [hp]; exact hcs))
      have h2 : Apart (s.setObj i { o with saved := .arrays kvs }) := by
        refine ⟨h1, h.nodup, fun j hj => ?_⟩
        have hj : j < s.objs.length := by simpa [State.setObj] using hj
        refine complete_of_described ?_ (h.complete j hj)
        by_cases e : j = i
        · subst e
          have := described_eq (s := s.setObj j { o with saved := .arrays kvs }) (i := j) (o := { o with saved := .arrays kvs }) (c := c) (by simp [State.setObj, hi]) hc
          rw [this, described_eq ho hc]
          rfl
        · exact described_setObj _ e
      exact newCore_apart h2 (o := { o with saved := .arrays kvs }) (i := i) (by simp [State.setObj, hi]) _ (fun p hp => by simp at hp) _ _ _
  | setDegrees i degrees =>
    simp only [step, Option.bind_eq_some_iff, Option.map_eq_some_iff] at hr
    obtain ⟨o, ho, c, hc, ids, hids, rfl⟩ := hr
    obtain ⟨g1, g2, g3, g4, g5, g6, g7, g8, g9⟩ := getSpace_ok h.sane ho hc
    have hi : i < s.objs.length := (List.getElem?_eq_some_iff.mp ho).1
    have ho' : (s.getSpace i o c).1.objs[i]? = some ⟨o.core, .space (s.getSpace i o c).2⟩ := by rw [g6]; simp [hi]
    exact newCore_apart (getSpace_apart h ho hc) ho' _ (fun p hp => by cases hp; rw [spacesOf_eq ho' (by rw [g5]; exact hc)]; simp) _ _ _
  | setCps i n =>
    simp only [step, Option.bind_eq_some_iff, Option.map_eq_some_iff] at hr
    obtain ⟨o, ho, c, hc, ids, hids, rfl⟩ := hr
    obtain ⟨g1, g2, g3, g4, g5, g6, g7, g8, g9⟩ := getSpace_ok h.sane ho hc
    have hi : i < s.objs.length := (List.getElem?_eq_some_iff.mp ho).1
    have ho' : (s.getSpace i o c).1.objs[i]? = some ⟨o.core, .space (s.getSpace i o c).2⟩ := by rw [g6]; simp [hi]
    exact newCore_apart (getSpace_apart h ho hc) ho' _ (fun p hp => by cases hp; rw [spacesOf_eq ho' (by rw [g5]; exact hc)]; simp) _ _ _
  | edit i d kv =>
    simp only [step, Option.bind_eq_some_iff, Option.map_eq_some_iff] at hr
    obtain ⟨o, ho, c, hc, ids, hids, rfl⟩ := hr
    have g := getSpace_apart h ho hc
    split
    · exact g
    · split
      · exact g
      · rename_i v hv hl
        refine ⟨g.sane.write _ _, by rw [(writeAll_frame _ _ _).1]; exact g.nodup, fun j hj => ?_⟩
        rw [(writeAll_frame _ _ _).2.2.1] at hj
        exact write_complete g.sane _ _ (fun e he => by simp only [List.zip_cons_cons, List.zip_nil_right, List.mem_singleton] at he; subst he; exact not_not.mp hl) (g.complete j hj)
  | assignObject i d j₀ e => exact absurd trivial hop
  | normalize i =>
    simp only [step, Option.bind_eq_some_iff, Option.map_eq_some_iff] at hr
    obtain ⟨o, ho, c, hc, ids, hids, rfl⟩ := hr
    have g := getSpace_apart h ho hc
    refine ⟨g.sane.write _ _, by rw [(writeAll_frame _ _ _).1]; exact g.nodup, fun j hj => ?_⟩
    rw [(writeAll_frame _ _ _).2.2.1] at hj
    refine write_complete g.sane _ _ (fun e he => ?_) (g.complete j hj)
    rw [State.read, List.map_map, List.zip_map_right, List.mem_map] at he
    obtain ⟨⟨a, b⟩, hab, rfl⟩ := he
    have : a = b := by
      obtain ⟨k, hk, hk'⟩ := List.mem_iff_getElem.mp hab
      simp only [List.getElem_zip, Prod.mk.injEq] at hk'
      rw [← hk'.1, ← hk'.2]
    subst this
    simp [scale]
  | refine i degrees kvs =>
    simp only [step, Option.bind_eq_some_iff, Option.ite_none_left_eq_some] at hr
    obtain ⟨o, ho, c, hc, ids, hids, -, hr⟩ := hr
    split at hr
    · cases hr; exact h
    · rename_i hlen
      simp only [Option.some.injEq] at hr
      subst hr
      rw [not_or, not_not, not_not] at hlen
      obtain ⟨w1, w2, w3, w4, w5⟩ := writeAll_frame ids kvs { s with cores := s.cores.set o.core ⟨c.space, degrees, needed degrees kvs⟩ }
      have hi : i < s.objs.length := (List.getElem?_eq_some_iff.mp ho).1
      have hk := (List.getElem?_eq_some_iff.mp hc).1
      refine ⟨hok.1, by simp only [State.setObj]; rw [w1]; exact h.nodup, fun j hj => ?_⟩
      have hjl : j < s.objs.length := by simpa [State.setObj, w3] using hj
      by_cases e : j = i
      · subst e
        refine ⟨(degrees, kvs, needed degrees kvs), ?_, by simp [hlen], rfl⟩
        have hd := described_eq (s := (State.writeAll { s with cores := s.cores.set o.core ⟨c.space, degrees, needed degrees kvs⟩ } ids kvs).setObj j ⟨o.core, .none⟩) (i := j)
          (o := ⟨o.core, .none⟩) (c := ⟨c.space, degrees, needed degrees kvs⟩) (by simp [State.setObj, w3, hi]) (by simp [State.setObj, w2, hk])
        rw [hd]
        have hn : ids.Nodup := (List.nodup_flatten.mp h.nodup).1 ids (List.mem_of_getElem? hids)
        have hrd := writeAll_read ids kvs { s with cores := s.cores.set o.core ⟨c.space, degrees, needed degrees kvs⟩ } hn
          (fun v hv => h.sane.ids c.space v (by rw [getD_mem_of hids]; exact hv)) hlen.1.symm
        simp only [State.setObj, w1, hids, Option.map_some, Option.some.injEq, Prod.mk.injEq, true_and, and_true]
        exact hrd
      · exact complete_of_described (hok.2.2 j hjl (by simp [Spec.target, Ne.symm e]) (fun k hk => by
          simp only [Spec.target, Option.some.injEq] at hk; subst hk; exact h.unshared (Ne.symm e))) (h.complete j hjl)
  | boundary i b => exact absurd trivial hop
  | evaluate i =>
    simp only [step, Option.bind_eq_some_iff, Option.ite_none_left_eq_some, Option.some.injEq] at hr
    obtain ⟨x, -, -, rfl⟩ := hr
    exact h

theorem sane_empty : Sane ({} : State K) :=
  ⟨fun i o h => by simp at h, fun i p hp => by simp [State.spacesOf] at hp, fun p v hv => by simp at hv, fun i j o o' _ h => by simp at h, fun i j _ p hp => by simp [State.spacesOf] at hp⟩

theorem apart_empty : Apart ({} : State K) := ⟨sane_empty, by simp, fun i hi => by simp at hi⟩

theorem run_sane : ∀ (ops : List (Op K)) {s t : State K}, Sane s → run s ops = some t → Sane t
  | [], s, t, h, hr => by simp only [run, List.foldlM_nil, Option.pure_def, Option.some.injEq] at hr; exact hr ▸ h
  | op :: ops, s, t, h, hr => by
      simp only [run, List.foldlM_cons, bind, Option.bind_eq_some_iff, Option.map_eq_some_iff] at hr
      obtain ⟨u, ⟨r, hr1, rfl⟩, hr⟩ := hr
      exact run_sane ops (step_ok h hr1).1 hr

theorem run_apart : ∀ (ops : List (Op K)) {s t : State K}, (∀ op ∈ ops, ¬ Spec.Shares op) → Apart s → run s ops = some t → Apart t
  | [], s, t, _, h, hr => by simp only [run, List.foldlM_nil, Option.pure_def, Option.some.injEq] at hr; exact hr ▸ h
  | op :: ops, s, t, ho, h, hr => by
      simp only [run, List.foldlM_cons, bind, Option.bind_eq_some_iff, Option.map_eq_some_iff] at hr
      obtain ⟨u, ⟨r, hr1, rfl⟩, hr⟩ := hr
      exact run_apart ops (fun x hx => ho x (List.mem_cons_of_mem _ hx)) (step_apart h (ho op List.mem_cons_self) hr1) hr

/-! ### Theorems -/

/-- C137, all histories: a call on one spline changes what another spline is evaluated with only if the first refers to a `KnotVector` object that the other uses. -/
theorem changes_only_shared (ops : List (Op K)) (s : State K) (hs : run {} ops = some s) (op : Op K) (r : Res K) (hr : step s op = some r) (j : ℕ) (hj : j < s.objs.length)
    (ht : Spec.target op ≠ some j) (hc : r.state.described j ≠ s.described j) : ∃ i, Spec.target op = some i ∧ ∃ v ∈ s.used j, v ∈ s.reach i := by
  by_contra hn
  push Not at hn
  exact hc ((step_ok (run_sane ops sane_empty hs) hr).2.2 j hj ht fun i hi v hv hw => hn i hi v hv hw)

/-- C137, for histories in which no boundary is extracted and no `KnotVector` object of one spline is assigned to another: a call on one spline (or the construction of a new one) changes no
other spline, every spline has the control points its knot vectors need, and can be evaluated. -/
theorem independent_partial (ops : List (Op K)) (hops : ∀ op ∈ ops, ¬ Spec.Shares op) (s : State K) (hs : run {} ops = some s) :
    (∀ i < s.objs.length, Spec.Complete s i ∧ step s (.evaluate i) = some ⟨s, false⟩) ∧
    ∀ (op : Op K) (r : Res K), step s op = some r → ∀ j < s.objs.length, Spec.target op ≠ some j → r.state.described j = s.described j := by
  have h := run_apart ops hops apart_empty hs
  refine ⟨fun i hi => ⟨h.complete i hi, ?_⟩, fun op r hr j hj ht => (step_ok h.sane hr).2.2 j hj ht fun i hi => h.unshared fun e => ht (e ▸ hi)⟩
  obtain ⟨x, hx, -, hx2⟩ := h.complete i hi
  simp only [step, hx, Option.bind_some]
  rw [if_neg (by omega)]

/-- A copy shares nothing with any spline, whatever happened before: the knots of a boundary are made independent by copying it. -/
theorem copy_unshared (ops : List (Op K)) (s : State K) (hs : run {} ops = some s) (i : ℕ) (r : Res K) (hr : step s (.copy i) = some r) (hok : r.raised = false) :
    r.state.described s.objs.length = s.described i ∧ ∀ j < s.objs.length, (∀ v ∈ r.state.used j, v ∉ r.state.reach s.objs.length) ∧ ∀ v ∈ r.state.used s.objs.length, v ∉ r.state.reach j := by
  have h := run_sane ops sane_empty hs
  simp only [step, Option.bind_eq_some_iff, Option.ite_none_left_eq_some, Option.some.injEq] at hr
  obtain ⟨x, hx, -, rfl⟩ := hr
  unfold State.construct at hok ⊢
  split at hok
  · rename_i ha
    rw [if_pos ha]
    have hnew : ({ s.fresh x.1 x.2.1 x.2.2 with objs := s.objs ++ [⟨s.cores.length, .none⟩] } : State K).objs[s.objs.length]? = some ⟨s.cores.length, .none⟩ := by simp
    have hcore : ({ s.fresh x.1 x.2.1 x.2.2 with objs := s.objs ++ [⟨s.cores.length, .none⟩] } : State K).cores[s.cores.length]? = some ⟨s.spaces.length, x.1, x.2.2⟩ := by simp [State.fresh]
    have hsp : ({ s.fresh x.1 x.2.1 x.2.2 with objs := s.objs ++ [⟨s.cores.length, .none⟩] } : State K).spaces[s.spaces.length]? = some (List.range' s.kvs.length x.2.1.length) := by
      simp [State.fresh]
    have hrd := fresh_read s x.1 x.2.1 x.2.2
    have old : ∀ j < s.objs.length, ∀ v, (v ∈ State.used { s.fresh x.1 x.2.1 x.2.2 with objs := s.objs ++ [⟨s.cores.length, .none⟩] } j ∨
        v ∈ State.reach { s.fresh x.1 x.2.1 x.2.2 with objs := s.objs ++ [⟨s.cores.length, .none⟩] } j) → v < s.kvs.length := by
      intro j hj v hv
      have hsame : State.spacesOf { s.fresh x.1 x.2.1 x.2.2 with objs := s.objs ++ [⟨s.cores.length, .none⟩] } j = s.spacesOf j := by
        rw [← (fresh_ok h x.1 x.2.1 x.2.2).2.1 j]
        exact spacesOf_congr (List.getElem?_append_left hj) fun _ _ => rfl
      have hp : ∃ p ∈ s.spacesOf j, v ∈ (s.spaces ++ [List.range' s.kvs.length x.2.1.length]).getD p [] := by
        rcases hv with hv | hv
        · obtain ⟨p, hp, hv⟩ := used_sub (construct_ok h x.1 x.2.1 x.2.2).1 (j := j) (v := v) (by unfold State.construct; rw [if_pos ha]; exact hv)
          unfold State.construct at hp hv
          rw [if_pos ha] at hp hv
          rw [hsame] at hp
          exact ⟨p, hp, hv⟩
        · obtain ⟨p, hp, hv⟩ := List.mem_flatMap.mp hv
          rw [hsame] at hp
          exact ⟨p, hp, hv⟩
      obtain ⟨p, hp, hv⟩ := hp
      rw [List.getD_eq_getElem?_getD, List.getElem?_append_left (h.space j p hp), ← List.getD_eq_getElem?_getD] at hv
      exact h.ids p v hv
    have new1 : ∀ v ∈ State.reach { s.fresh x.1 x.2.1 x.2.2 with objs := s.objs ++ [⟨s.cores.length, .none⟩] } s.objs.length, s.kvs.length ≤ v := by
      intro v hv
      unfold State.reach at hv
      rw [spacesOf_eq hnew hcore] at hv
      simp only [List.flatMap_cons, List.flatMap_nil, List.append_nil] at hv
      rw [getD_mem_of hsp, List.mem_range'_1] at hv
      exact hv.1
    have new2 : ∀ v ∈ State.used { s.fresh x.1 x.2.1 x.2.2 with objs := s.objs ++ [⟨s.cores.length, .none⟩] } s.objs.length, s.kvs.length ≤ v := by
      intro v hv
      rw [used_eq hnew hcore, hsp, Option.getD_some, List.mem_range'_1] at hv
      exact hv.1
    refine ⟨?_, fun j hj => ⟨fun v hv hw => ?_, fun v hv hw => ?_⟩⟩
    · rw [hx]
      have := described_eq hnew hcore
      rw [this, hsp]
      simp only [Option.map_some, Option.some.injEq]
      unfold State.read at hrd ⊢
      rw [show ({ s.fresh x.1 x.2.1 x.2.2 with objs := s.objs ++ [⟨s.cores.length, .none⟩] } : State K).kvs = (s.fresh x.1 x.2.1 x.2.2).kvs from rfl, hrd]
    · exact absurd (new1 v hw) (by have := old j hj v (Or.inl hv); omega)
    · exact absurd (new2 v hv) (by have := old j hj v (Or.inr hw); omega)
  · simp at hok

theorem read_eraseIdx (s : State K) (ids : List ℕ) (a : ℕ) : s.read (ids.eraseIdx a) = (s.read ids).eraseIdx a := by
  simp only [State.read]
  refine List.ext_getElem? fun k => ?_
  simp only [List.getElem?_map, List.getElem?_eraseIdx]
  split <;> rfl

/-- C137 is violated by every spline with knot vectors: let `s` be a state without sharing, `i` a spline in it of two or more parametric dimensions, `b` one of its faces. The boundary is extracted and
matches the parent. Then the parent is refined, by any call that gives the directions along the face more basis functions. The boundary spline, on which nothing was called, now has the refined knots
but the old control points: evaluating it reads beyond them. -/
theorem boundary_refine_violates (ops : List (Op K)) (hops : ∀ op ∈ ops, ¬ Spec.Shares op) (s : State K) (hs : run {} ops = some s) (i b : ℕ) (degrees : List ℕ) (kvs : List (List K)) (n : ℕ)
    (hd : s.described i = some (degrees, kvs, n)) (hb : 2 ≤ kvs.length) (hb' : b < 2 * kvs.length) (degrees' : List ℕ) (kvs' : List (List K)) (hl : kvs'.length = kvs.length)
    (hl' : degrees'.length = kvs.length) (hmore : needed (degrees.eraseIdx (b / 2)) (kvs.eraseIdx (b / 2)) < needed (degrees.eraseIdx (b / 2)) (kvs'.eraseIdx (b / 2))) :
    ∃ r r', step s (.boundary i b) = some r ∧ r.raised = false ∧
      r.state.described s.objs.length = some (degrees.eraseIdx (b / 2), kvs.eraseIdx (b / 2), needed (degrees.eraseIdx (b / 2)) (kvs.eraseIdx (b / 2))) ∧
      step r.state (.refine i degrees' kvs') = some r' ∧ r'.raised = false ∧
      r'.state.described s.objs.length = some (degrees.eraseIdx (b / 2), kvs'.eraseIdx (b / 2), needed (degrees.eraseIdx (b / 2)) (kvs.eraseIdx (b / 2))) ∧
      step r'.state (.evaluate s.objs.length) = none := by
  have h := run_apart ops hops apart_empty hs
  obtain ⟨x, hx, hx1, hx2⟩ := h.complete i (by
    by_contra hc
    rw [State.described, List.getElem?_eq_none (by omega)] at hd
    simp at hd)
  rw [hd] at hx
  obtain rfl := Option.some.inj hx
  simp only at hx1 hx2
  unfold State.described at hd
  simp only [Option.bind_eq_some_iff, Option.map_eq_some_iff, Prod.mk.injEq] at hd
  obtain ⟨o, ho, c, hc, ids, hids, hdeg, hkv, hn⟩ := hd
  have hi : i < s.objs.length := (List.getElem?_eq_some_iff.mp ho).1
  have hoc := (List.getElem?_eq_some_iff.mp hc).1
  have hsc := (List.getElem?_eq_some_iff.mp hids).1
  have hil : ids.length = kvs.length := by rw [← hkv]; simp [State.read]
  subst hdeg
  have hnd : ids.Nodup := (List.nodup_flatten.mp h.nodup).1 ids (List.mem_of_getElem? hids)
  let core' : Core := ⟨s.spaces.length, c.degrees.eraseIdx (b / 2), needed (c.degrees.eraseIdx (b / 2)) (s.read (ids.eraseIdx (b / 2)))⟩
  let s1 : State K := { s with spaces := s.spaces ++ [ids.eraseIdx (b / 2)], cores := s.cores ++ [core'], objs := s.objs ++ [⟨s.cores.length, .none⟩] }
  have e1 : step s (.boundary i b) = some ⟨s1, false⟩ := by
    simp only [step, ho, hc, hids, Option.bind_some]
    rw [if_neg (by omega), if_neg (by rw [hkv, hn, hx2]; exact lt_irrefl _)]
  have hr1 : s1.read ids = kvs := hkv
  have ho1 : s1.objs[i]? = some o := by rw [show s1.objs = s.objs ++ _ from rfl, List.getElem?_append_left hi]; exact ho
  have hc1 : s1.cores[o.core]? = some c := by rw [show s1.cores = s.cores ++ _ from rfl, List.getElem?_append_left hoc]; exact hc
  have hs1 : s1.spaces[c.space]? = some ids := by rw [show s1.spaces = s.spaces ++ _ from rfl, List.getElem?_append_left hsc]; exact hids
  let s2 : State K := State.writeAll { s1 with cores := s1.cores.set o.core ⟨c.space, degrees', needed degrees' kvs'⟩ } ids kvs'
  have e2 : step s1 (.refine i degrees' kvs') = some ⟨s2.setObj i ⟨o.core, .none⟩, false⟩ := by
    simp only [step, ho1, hc1, hs1, Option.bind_some]
    rw [if_neg (by rw [hr1, hn, hx2]; simp), if_neg (by omega)]
  obtain ⟨w1, w2, w3, w4, w5⟩ := writeAll_frame ids kvs' { s1 with cores := s1.cores.set o.core ⟨c.space, degrees', needed degrees' kvs'⟩ }
  have hrd : s2.read ids = kvs' := writeAll_read ids kvs' _ hnd (fun v hv => h.sane.ids c.space v (by rw [getD_mem_of hids]; exact hv)) (by omega)
  have d1 : s1.described s.objs.length = some (c.degrees.eraseIdx (b / 2), kvs.eraseIdx (b / 2), needed (c.degrees.eraseIdx (b / 2)) (kvs.eraseIdx (b / 2))) := by
    rw [described_eq (s := s1) (o := ⟨s.cores.length, .none⟩)
      (c := core') (by simp [s1]) (by simp [s1])]
    rw [show s1.spaces[s.spaces.length]? = some (ids.eraseIdx (b / 2)) by simp [s1]]
    simp only [Option.map_some, core', read_eraseIdx, hkv, hr1]
  have hbd : (s2.setObj i ⟨o.core, .none⟩).described s.objs.length =
      some (c.degrees.eraseIdx (b / 2), kvs'.eraseIdx (b / 2), needed (c.degrees.eraseIdx (b / 2)) (kvs.eraseIdx (b / 2))) := by
    rw [described_eq (s := s2.setObj i ⟨o.core, .none⟩) (o := ⟨s.cores.length, .none⟩)
      (c := core')
      (by simp only [State.setObj, s2, w3]; rw [List.getElem?_set_ne (by omega)]; simp [s1])
      (by simp only [State.setObj, s2, w2]; rw [List.getElem?_set_ne (by omega)]; simp [s1])]
    rw [show (s2.setObj i ⟨o.core, .none⟩).spaces[s.spaces.length]? = some (ids.eraseIdx (b / 2)) by simp only [State.setObj, s2, w1]; simp [s1]]
    have : (s2.setObj i ⟨o.core, .none⟩).read (ids.eraseIdx (b / 2)) = kvs'.eraseIdx (b / 2) := by
      rw [read_eraseIdx]; exact congrArg (fun l => List.eraseIdx l (b / 2)) hrd
    simp only [Option.map_some, core', this, read_eraseIdx, hkv]
  refine ⟨_, _, e1, rfl, d1, e2, rfl, hbd, ?_⟩
  simp only [step, hbd, Option.bind_some]
  rw [if_pos hmore]

/-- C137 is violated in the other direction as well: changed knots of a boundary spline are the knots of its parent. Every edit of the knots of the face (`boundary.knot_vectors[d] = …`, a slice, a
single knot) shows up in the spline the boundary was taken from. -/
theorem boundary_edit_violates (ops : List (Op K)) (hops : ∀ op ∈ ops, ¬ Spec.Shares op) (s : State K) (hs : run {} ops = some s) (i b : ℕ) (degrees : List ℕ) (kvs : List (List K)) (n : ℕ)
    (hd : s.described i = some (degrees, kvs, n)) (hb : 2 ≤ kvs.length) (hb' : b < 2 * kvs.length) (d : ℕ) (hdl : d + 1 < kvs.length) (kv : List K)
    (hkl : kv.length = ((kvs.eraseIdx (b / 2)).getD d []).length) :
    ∃ r r', step s (.boundary i b) = some r ∧ r.raised = false ∧ r.state.described i = some (degrees, kvs, n) ∧ step r.state (.edit s.objs.length d kv) = some r' ∧
      r'.state.described i = some (degrees, kvs.set (if d < b / 2 then d else d + 1) kv, n) := by
  have h := run_apart ops hops apart_empty hs
  obtain ⟨x, hx, hx1, hx2⟩ := h.complete i (by
    by_contra hc
    rw [State.described, List.getElem?_eq_none (by omega)] at hd
    simp at hd)
  rw [hd] at hx
  obtain rfl := Option.some.inj hx
  simp only at hx1 hx2
  unfold State.described at hd
  simp only [Option.bind_eq_some_iff, Option.map_eq_some_iff, Prod.mk.injEq] at hd
  obtain ⟨o, ho, c, hc, ids, hids, hdeg, hkv, hn⟩ := hd
  have hi : i < s.objs.length := (List.getElem?_eq_some_iff.mp ho).1
  have hoc := (List.getElem?_eq_some_iff.mp hc).1
  have hsc := (List.getElem?_eq_some_iff.mp hids).1
  have hil : ids.length = kvs.length := by rw [← hkv]; simp [State.read]
  subst hdeg
  have hnd : ids.Nodup := (List.nodup_flatten.mp h.nodup).1 ids (List.mem_of_getElem? hids)
  let core' : Core := ⟨s.spaces.length, c.degrees.eraseIdx (b / 2), needed (c.degrees.eraseIdx (b / 2)) (s.read (ids.eraseIdx (b / 2)))⟩
  let s1 : State K := { s with spaces := s.spaces ++ [ids.eraseIdx (b / 2)], cores := s.cores ++ [core'], objs := s.objs ++ [⟨s.cores.length, .none⟩] }
  have e1 : step s (.boundary i b) = some ⟨s1, false⟩ := by
    simp only [step, ho, hc, hids, Option.bind_some]
    rw [if_neg (by omega), if_neg (by rw [hkv, hn, hx2]; exact lt_irrefl _)]
  have hr1 : s1.read ids = kvs := hkv
  have ho1 : s1.objs[i]? = some o := by rw [show s1.objs = s.objs ++ _ from rfl, List.getElem?_append_left hi]; exact ho
  have hc1 : s1.cores[o.core]? = some c := by rw [show s1.cores = s.cores ++ _ from rfl, List.getElem?_append_left hoc]; exact hc
  have hs1 : s1.spaces[c.space]? = some ids := by rw [show s1.spaces = s.spaces ++ _ from rfl, List.getElem?_append_left hsc]; exact hids
  let a := if d < b / 2 then d else d + 1
  have hal : a < ids.length := by simp only [a]; split <;> omega
  have hev : (ids.eraseIdx (b / 2))[d]? = some ids[a] := by
    rw [List.getElem?_eraseIdx]
    simp only [a]
    split
    · rw [List.getElem?_eq_getElem]
    · rw [List.getElem?_eq_getElem]
  have hkvl : (s.kvs.getD ids[a] []).length = kv.length := by
    rw [hkl, ← hkv, ← read_eraseIdx, State.read, List.getD_eq_getElem?_getD (l := List.map _ _), List.getElem?_map, hev]
    rfl
  have hob : s1.objs[s.objs.length]? = some ⟨s.cores.length, .none⟩ := by simp [s1]
  have hcb : s1.cores[s.cores.length]? = some core' := by simp [s1]
  have hsb : s1.spaces[s.spaces.length]? = some (ids.eraseIdx (b / 2)) := by simp [s1]
  let s2 := s1.setObj s.objs.length ⟨s.cores.length, .space s.spaces.length⟩
  have e2 : step s1 (.edit s.objs.length d kv) = some ⟨s2.writeAll [ids[a]] [kv], !inOrder (kv.headD 0) kv⟩ := by
    simp only [step, hob, hcb, State.getSpace, Option.bind_some]
    rw [show (s1.setObj s.objs.length ⟨s.cores.length, .space core'.space⟩).spaces[core'.space]? = some (ids.eraseIdx (b / 2)) from hsb]
    simp only [Option.map_some, hev]
    exact congrArg some (if_neg (by rw [not_not]; exact hkvl))
  refine ⟨_, _, e1, rfl, ?_, e2, ?_⟩
  · rw [described_eq (s := s1) ho1 hc1, hs1, Option.map_some, hr1, hn]
  · have hd2 := described_eq (s := s2.writeAll [ids[a]] [kv]) (i := i) (o := o) (c := c)
      (by simp only [State.writeAll, List.zip_cons_cons, List.zip_nil_right, List.foldl_cons, List.foldl_nil, s2, State.setObj]; rw [List.getElem?_set_ne (by omega)]; exact ho1) hc1
    have hrd : (s2.writeAll [ids[a]] [kv]).read ids = kvs.set a kv := by
      rw [← hkv]
      simp only [State.read, State.writeAll, List.zip_cons_cons, List.zip_nil_right, List.foldl_cons, List.foldl_nil]
      refine List.ext_getElem (by simp) fun k h1 h2 => ?_
      have hk : k < ids.length := by simpa using h1
      rw [List.getElem_set]
      simp only [List.getElem_map]
      have hin : ids[a] < s.kvs.length := h.sane.ids c.space _ (by rw [getD_mem_of hids]; exact List.getElem_mem _)
      split
      · rename_i e
        subst e
        rw [List.getD_eq_getElem?_getD, List.getElem?_set_self (show _ < s2.kvs.length from hin)]; rfl
      · rename_i e
        have : ids[a] ≠ ids[k] := fun he => e ((List.Nodup.getElem_inj_iff hnd).mp he)
        rw [List.getD_eq_getElem?_getD, List.getElem?_set_ne this, ← List.getD_eq_getElem?_getD]; rfl
    rw [hd2, show (s2.writeAll [ids[a]] [kv]).spaces[c.space]? = some ids from hs1, Option.map_some, hrd, hn]

/-- C137 is violated by assigning a `KnotVector` object: two curves, `a.knot_vectors[0] = b.knot_vectors[0]`, then a knot is inserted into `b`: evaluating `a` reads beyond its control points. -/
theorem assign_object_violates : ∃ s : State ℚ, run {} [.new [1] [[0, 0, 1, 1]] 2, .new [1] [[0, 0, 2, 2]] 2, .assignObject 0 0 1 0] = some s ∧
    (step s (.evaluate 0)).isSome ∧ ∃ r, step s (.refine 1 [1] [[0, 0, 1, 2, 2]]) = some r ∧ r.raised = false ∧ step r.state (.evaluate 0) = none := by
  refine ⟨_, rfl, by decide +kernel, _, rfl, by decide +kernel, by decide +kernel⟩

/-! ### The hypotheses are met -/

/-- a history without sharing: a surface, a copy, an edit of the copy, knot insertion into the surface -/
def sampleOps : List (Op ℚ) :=
  [.new [1, 1] [[0, 0, 1, 1], [0, 0, 1, 1]] 4, .copy 0, .edit 1 0 [0, 0, 2, 2], .refine 0 [1, 1] [[0, 0, 1/2, 1, 1], [0, 0, 1, 1]], .normalize 1, .setKvs 1 [[0, 0, 3, 3], [0, 0, 1, 1]]]

def sampleState : State ℚ := (run {} sampleOps).getD {}

example : run {} sampleOps = some sampleState ∧ (∀ op ∈ sampleOps, ¬ Spec.Shares op) ∧ sampleState.objs.length = 2 ∧
    sampleState.described 0 = some ([1, 1], [[0, 0, 1/2, 1, 1], [0, 0, 1, 1]], 6) ∧ sampleState.described 1 = some ([1, 1], [[0, 0, 3, 3], [0, 0, 1, 1]], 4) :=
  ⟨by decide +kernel, by simp [sampleOps, Spec.Shares], by decide +kernel, by decide +kernel, by decide +kernel⟩

/-- the hypotheses of the violations hold for the bottom face of this surface -/
example : needed [1, 1] [[0, 0, 1/2, 1, 1], [0, 0, (1 : ℚ), 1]] = 6 ∧
    needed ([1, 1].eraseIdx (2 / 2)) (([[0, 0, 1/2, 1, 1], [0, 0, (1 : ℚ), 1]] : List (List ℚ)).eraseIdx (2 / 2)) <
      needed ([1, 1].eraseIdx (2 / 2)) (([[0, 0, 1/2, 3/4, 1, 1], [0, 0, (1 : ℚ), 1]] : List (List ℚ)).eraseIdx (2 / 2)) := by decide +kernel

/-- a call that changes another spline, as `changes_only_shared` speaks of -/
example : ∃ (s : State ℚ) (r : Res ℚ), run {} [.new [1, 1] [[0, 0, 1, 1], [0, 0, 1, 1]] 4, .boundary 0 2] = some s ∧ step s (.edit 1 0 [0, 0, 2, 2]) = some r ∧
    r.state.described 0 ≠ s.described 0 := ⟨_, _, rfl, rfl, by decide +kernel⟩

/-- a copy of a boundary succeeds -/
example : ∃ (s : State ℚ) (r : Res ℚ), run {} [.new [1, 1] [[0, 0, 1, 1], [0, 0, 1, 1]] 4, .boundary 0 2] = some s ∧ step s (.copy 1) = some r ∧ r.raised = false := ⟨_, _, rfl, rfl, by decide +kernel⟩

end Splinepy.KnotSharing
