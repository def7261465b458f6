import Verif.Model.Lifetime
import Mathlib.Tactic.ByContra
import Mathlib.Tactic.Cases
import Mathlib.Data.List.Basic

/-!
C117: the control points a spline reads are in memory that is still in use, after every history of calls.
-/
namespace Splinepy.Lifetime

variable {α P : Type}

/-! ### specification -/

/-- All splines and all multipatches can be evaluated: no freed memory is read. -/
def Spec.Evaluable (count : P → Nat) (views : Bool) (s : State α P) : Prop :=
  (∀ i, i < s.objs.length → step count views s (.evaluate i) ≠ none) ∧ ∀ m, m < s.multis.length → step count views s (.evaluateMulti m) ≠ none

/-- The number of control points that the properties of object `i` need. -/
def Spec.needed (count : P → Nat) (s : State α P) (i : Nat) : Option Nat :=
  (s.objs[i]?).bind fun o => (o.props.or ((o.core.bind fun c => s.cores[c]?).map Core.props)).map count

/-- Object `i` is not a patch of a multipatch. -/
def Spec.Single (s : State α P) (i : Nat) : Prop := ∀ (o : Obj P) c, s.objs[i]? = some o → o.core = some c → ∀ m ∈ s.multis, c ∉ m

/-- The calls after which a spline stays usable: all but
* assigning control points of a wrong number (which raises),
* `insert_knots` that inserts nothing,
* assigning to, or clearing, a spline that is a patch of a multipatch. -/
def Spec.Allowed (count : P → Nat) (s : State α P) : Op α P → Prop
  | .setCps i rows => (∀ n, Spec.needed count s i = some n → rows.length = n) ∧ Spec.Single s i
  | .setProps i _ => Spec.Single s i
  | .clear i => Spec.Single s i
  | .modify _ none => False
  | _ => True

/-- Every call of a history is allowed, in the state it meets. -/
def Spec.AllAllowed (count : P → Nat) (views : Bool) : State α P → List (Op α P) → Prop
  | _, [] => True
  | s, op :: ops => Spec.Allowed count s op ∧ ∀ r, step count views s op = some r → Spec.AllAllowed count views r.state ops

/-! ### the invariant -/

structure Inv (s : State α P) : Prop where
  core : ∀ (i : Nat) o c, s.objs[i]? = some o → o.core = some c → c < s.cores.length
  multi : ∀ m ∈ s.multis, ∀ c ∈ m, ∃ (i : Nat) (o : Obj P), s.objs[i]? = some o ∧ o.core = some c
  block : ∀ (c : Nat) k, s.cores[c]? = some k → k.block < s.mem.length
  saved : ∀ (i : Nat) o a, s.objs[i]? = some o → o.saved = some a → a.block < s.mem.length
  view : ∀ (i : Nat) o c k, s.objs[i]? = some o → o.core = some c → s.cores[c]? = some k → k.owned = false → ∃ a, o.saved = some a ∧ a.block = k.block

theorem inv_empty : Inv ({} : State α P) := ⟨by simp, by simp, by simp, by simp, by simp⟩

theorem referenced_iff {s : State α P} {c : Nat} : s.referenced c = true ↔ (∃ (i : Nat) (o : Obj P), s.objs[i]? = some o ∧ o.core = some c) ∨ ∃ m ∈ s.multis, c ∈ m := by
  unfold State.referenced
  rw [Bool.or_eq_true, List.any_eq_true, List.any_eq_true]
  constructor
  · rintro (⟨o, ho, h⟩ | ⟨m, hm, h⟩)
    · obtain ⟨i, hi⟩ := List.mem_iff_getElem?.1 ho
      exact Or.inl ⟨i, o, hi, by simpa using h⟩
    · exact Or.inr ⟨m, hm, by simpa using h⟩
  · rintro (⟨i, o, hi, h⟩ | ⟨m, hm, h⟩)
    · exact Or.inl ⟨o, List.mem_of_getElem? hi, by simpa using h⟩
    · exact Or.inr ⟨m, hm, by simpa using h⟩

theorem alive_owned {s : State α P} {c : Nat} {k : Core P} (h : s.referenced c = true) (hk : s.cores[c]? = some k) (ho : k.owned = true) : s.alive k.block = true := by
  unfold State.alive
  have hc : c < s.cores.length := by
    by_contra hc
    rw [List.getElem?_eq_none (by omega)] at hk
    cases hk
  rw [Bool.or_eq_true, Bool.or_eq_true, List.any_eq_true]
  refine Or.inl (Or.inl ⟨c, List.mem_range.2 hc, ?_⟩)
  rw [hk, h]
  simp [ho]

theorem alive_saved {s : State α P} {i : Nat} {o : Obj P} {a : Arr} (ho : s.objs[i]? = some o) (ha : o.saved = some a) : s.alive a.block = true := by
  unfold State.alive
  rw [Bool.or_eq_true, Bool.or_eq_true, List.any_eq_true (l := s.objs)]
  exact Or.inl (Or.inr ⟨o, List.mem_of_getElem? ho, by rw [ha]; simp⟩)

theorem alive_held {s : State α P} {j : Nat} {a : Arr} (h : s.held[j]? = some (some a)) : s.alive a.block = true := by
  unfold State.alive
  rw [Bool.or_eq_true, Bool.or_eq_true, List.any_eq_true (l := s.held)]
  exact Or.inr ⟨some a, List.mem_of_getElem? h, by simp⟩

theorem Inv.load {s : State α P} (h : Inv s) {i : Nat} {o : Obj P} {c : Nat} (ho : s.objs[i]? = some o) (hc : o.core = some c) :
    ∃ k rows, s.cores[c]? = some k ∧ s.loadCore c = some rows ∧ s.mem[k.block]? = some rows := by
  have hlt := h.core i o c ho hc
  have hk : s.cores[c]? = some s.cores[c] := List.getElem?_eq_getElem hlt
  have hb := h.block c _ hk
  refine ⟨_, s.mem[s.cores[c].block], hk, ?_, List.getElem?_eq_getElem hb⟩
  unfold State.loadCore State.load
  rw [hk, Option.bind_some, if_pos, List.getElem?_eq_getElem hb]
  cases hw : s.cores[c].owned
  · obtain ⟨a, ha, e⟩ := h.view i o c _ ho hc hk hw
    rw [← e]
    exact alive_saved ho ha
  · exact alive_owned (referenced_iff.2 (Or.inl ⟨i, o, ho, hc⟩)) hk hw

theorem Inv.evaluable {s : State α P} (h : Inv s) (count : P → Nat) (views : Bool) : Spec.Evaluable count views s := by
  constructor
  · intro i hi
    obtain ⟨o, ho⟩ : ∃ o, s.objs[i]? = some o := ⟨_, List.getElem?_eq_getElem hi⟩
    unfold step
    simp only [ho, Option.bind_some]
    cases hc : o.core with
    | none => simp
    | some c =>
      obtain ⟨k, rows, -, h2, -⟩ := h.load ho hc
      simp [h2]
  · intro m hm
    obtain ⟨cs, hcs⟩ : ∃ cs, s.multis[m]? = some cs := ⟨_, List.getElem?_eq_getElem hm⟩
    unfold step
    simp only [hcs, Option.bind_some]
    have hall : ∀ c ∈ cs, ∃ rows, s.loadCore c = some rows := by
      intro c hc
      obtain ⟨i, o, ho, hoc⟩ := h.multi cs (List.mem_of_getElem? hcs) c hc
      obtain ⟨k, rows, -, h2, -⟩ := h.load ho hoc
      exact ⟨rows, h2⟩
    have : ∃ r, cs.mapM (fun c => s.loadCore c) = some r := by
      clear hcs
      induction cs with
      | nil => exact ⟨[], rfl⟩
      | cons c cs ih =>
        obtain ⟨r, hr⟩ := hall c (.head _)
        obtain ⟨r', hr'⟩ := ih fun c hc => hall c (.tail _ hc)
        exact ⟨r :: r', by rw [List.mapM_cons, hr, hr']; rfl⟩
    obtain ⟨r, hr⟩ := this
    rw [hr]
    simp

/-! ### the parts of the calls -/

theorem getElem?_set' {β : Type} {l : List β} {i : Nat} {x : β} {j : Nat} {y : β} (h : (l.set i x)[j]? = some y) : (j = i ∧ y = x) ∨ (j ≠ i ∧ l[j]? = some y) := by
  by_cases e : i = j
  · subst e
    rw [List.getElem?_set_self'] at h
    cases hl : l[i]? with
    | none => rw [hl] at h; simp at h
    | some z =>
      rw [hl] at h
      simp at h
      exact Or.inl ⟨rfl, h.symm⟩
  · rw [List.getElem?_set_ne e] at h
    exact Or.inr ⟨fun h => e h.symm, h⟩

theorem getElem?_append' {β : Type} {l : List β} {x : β} {j : Nat} {y : β} (h : (l ++ [x])[j]? = some y) : l[j]? = some y ∨ (j = l.length ∧ y = x) := by
  by_cases hj : j < l.length
  · rw [List.getElem?_append_left hj] at h
    exact Or.inl h
  · rw [List.getElem?_append_right (by omega)] at h
    have : j - l.length = 0 := by
      by_contra hne
      rw [List.getElem?_eq_none (by simp; omega)] at h
      cases h
    rw [this] at h
    exact Or.inr ⟨by omega, by simpa using h.symm⟩

theorem getElem?_append_of {β : Type} {l : List β} {x : β} {j : Nat} {y : β} (h : l[j]? = some y) : (l ++ [x])[j]? = some y := by
  have : j < l.length := by
    by_contra hne
    rw [List.getElem?_eq_none (by omega)] at h
    cases h
  rw [List.getElem?_append_left this, h]

theorem Inv.alloc {s : State α P} (h : Inv s) (rows : List α) : Inv (alloc s rows) := by
  refine ⟨h.core, h.multi, fun c k hk => ?_, fun i o a ho ha => ?_, h.view⟩
  · have := h.block c k hk
    simp only [Lifetime.alloc, List.length_append]
    omega
  · have := h.saved i o a ho ha
    simp only [Lifetime.alloc, List.length_append]
    omega

theorem Inv.setObj {s : State α P} (h : Inv s) {i : Nat} {o o' : Obj P} (ho : s.objs[i]? = some o) (hcore : ∀ c, o'.core = some c → c < s.cores.length)
    (hsaved : ∀ a, o'.saved = some a → a.block < s.mem.length)
    (hview : ∀ c k, o'.core = some c → s.cores[c]? = some k → k.owned = false → ∃ a, o'.saved = some a ∧ a.block = k.block)
    (hmulti : ∀ c, o.core = some c → o'.core = some c ∨ ∀ m ∈ s.multis, c ∉ m) : Inv (setObj s i o') := by
  have hi : i < s.objs.length := by
    by_contra hne
    rw [List.getElem?_eq_none (by omega)] at ho
    cases ho
  refine ⟨fun j x c hx hc => ?_, fun m hm c hc => ?_, h.block, fun j x a hx ha => ?_, fun j x c k hx hc hk hw => ?_⟩
  · obtain ⟨rfl, rfl⟩ | ⟨-, hx⟩ := getElem?_set' hx
    · exact hcore c hc
    · exact h.core j x c hx hc
  · obtain ⟨j, x, hx, hxc⟩ := h.multi m hm c hc
    by_cases e : j = i
    · subst e
      rw [ho] at hx
      cases hx
      rcases hmulti c hxc with h' | h'
      · exact ⟨j, o', by simp [Lifetime.setObj, hi], h'⟩
      · exact absurd hc (h' m hm)
    · exact ⟨j, x, by simp only [Lifetime.setObj]; rw [List.getElem?_set_ne (fun h => e h.symm), hx], hxc⟩
  · obtain ⟨rfl, rfl⟩ | ⟨-, hx⟩ := getElem?_set' hx
    · exact hsaved a ha
    · exact h.saved j x a hx ha
  · obtain ⟨rfl, rfl⟩ | ⟨-, hx⟩ := getElem?_set' hx
    · exact hview c k hc hk hw
    · exact h.view j x c k hx hc hk hw

theorem Inv.addCore {s : State α P} (h : Inv s) {k : Core P} (hk : k.block < s.mem.length) : Inv { s with cores := s.cores ++ [k] } := by
  refine ⟨fun i o c ho hc => ?_, h.multi, fun c k' hk' => ?_, h.saved, fun i o c k' ho hc hk' hw => ?_⟩
  · have := h.core i o c ho hc
    simp only [List.length_append]
    omega
  · rcases getElem?_append' hk' with h' | ⟨-, rfl⟩
    · exact h.block c k' h'
    · exact hk
  · rcases getElem?_append' hk' with h' | ⟨rfl, rfl⟩
    · exact h.view i o c k' ho hc h' hw
    · exact absurd (h.core i o _ ho hc) (Nat.lt_irrefl _)

theorem Inv.addObj {s : State α P} (h : Inv s) {o : Obj P} (hcore : ∀ c, o.core = some c → c < s.cores.length) (hsaved : ∀ a, o.saved = some a → a.block < s.mem.length)
    (hview : ∀ c k, o.core = some c → s.cores[c]? = some k → k.owned = false → ∃ a, o.saved = some a ∧ a.block = k.block) : Inv { s with objs := s.objs ++ [o] } := by
  refine ⟨fun i x c hx hc => ?_, fun m hm c hc => ?_, h.block, fun i x a hx ha => ?_, fun i x c k hx hc hk hw => ?_⟩
  · rcases getElem?_append' hx with h' | ⟨-, rfl⟩
    · exact h.core i x c h' hc
    · exact hcore c hc
  · obtain ⟨i, x, hx, hxc⟩ := h.multi m hm c hc
    exact ⟨i, x, getElem?_append_of hx, hxc⟩
  · rcases getElem?_append' hx with h' | ⟨-, rfl⟩
    · exact h.saved i x a h' ha
    · exact hsaved a ha
  · rcases getElem?_append' hx with h' | ⟨-, rfl⟩
    · exact h.view i x c k h' hc hk hw
    · exact hview c k hc hk hw

theorem corePointers_frame (s : State α P) (c : Nat) (k : Core P) :
    (corePointers s c k).1.mem = s.mem ∧ (corePointers s c k).1.objs = s.objs ∧ (corePointers s c k).1.multis = s.multis ∧ (corePointers s c k).1.held = s.held := by
  unfold corePointers
  simp only
  split <;> simp

/-- Cores keep everything but their pointers. -/
theorem corePointers_cores {s : State α P} {c : Nat} {k : Core P} (hk : s.cores[c]? = some k) :
    (corePointers s c k).1.cores.length = s.cores.length ∧ ∀ (d : Nat) k', (corePointers s c k).1.cores[d]? = some k' → ∃ k0, s.cores[d]? = some k0 ∧ k'.block = k0.block ∧
      k'.owned = k0.owned ∧ k'.props = k0.props := by
  unfold corePointers
  simp only
  split
  · exact ⟨rfl, fun d k' h => ⟨k', h, rfl, rfl, rfl⟩⟩
  · refine ⟨by simp, fun d k' h => ?_⟩
    obtain ⟨rfl, rfl⟩ | ⟨-, h⟩ := getElem?_set' h
    · exact ⟨k, hk, rfl, rfl, rfl⟩
    · exact ⟨k', h, rfl, rfl, rfl⟩

theorem Inv.corePointers {s : State α P} (h : Inv s) {c : Nat} {k : Core P} (hk : s.cores[c]? = some k) : Inv (corePointers s c k).1 := by
  obtain ⟨e1, e2, e3, -⟩ := corePointers_frame s c k
  obtain ⟨e4, e5⟩ := corePointers_cores hk
  refine ⟨fun i o d ho hd => ?_, fun m hm d hd => ?_, fun d k' hk' => ?_, fun i o a ho ha => ?_, fun i o d k' ho hd hk' hw => ?_⟩
  · rw [e2] at ho
    rw [e4]
    exact h.core i o d ho hd
  · rw [e3] at hm
    rw [e2]
    exact h.multi m hm d hd
  · obtain ⟨k0, h0, hb, -⟩ := e5 d k' hk'
    rw [hb, e1]
    exact h.block d k0 h0
  · rw [e2] at ho
    rw [e1]
    exact h.saved i o a ho ha
  · rw [e2] at ho
    obtain ⟨k0, h0, hb, hw', -⟩ := e5 d k' hk'
    rw [hb]
    exact h.view i o d k0 ho hd h0 (by rw [← hw']; exact hw)

theorem setObj_get {s : State α P} {i : Nat} (o : Obj P) (hi : i < s.objs.length) : (setObj s i o).objs[i]? = some o := by simp [setObj, hi]

/-- What `prepare` leaves as it is, and that afterwards the object has an array if it has a core. -/
theorem prepare_inv {s s' : State α P} (h : Inv s) {i : Nat} (hs : prepare s i = some s') :
    Inv s' ∧ s'.multis = s.multis ∧ ∃ o o', s.objs[i]? = some o ∧ s'.objs[i]? = some o' ∧ o'.core = o.core ∧ o'.props = o.props := by
  unfold prepare at hs
  cases ho : s.objs[i]? with
  | none => rw [ho] at hs; cases hs
  | some o =>
    have hi : i < s.objs.length := by
      by_contra hne
      rw [List.getElem?_eq_none (by omega)] at ho
      cases ho
    rw [ho] at hs
    simp only at hs
    cases hc : o.core with
    | none =>
      rw [hc] at hs
      cases hs
      exact ⟨h, rfl, o, o, rfl, ho, rfl, rfl⟩
    | some c =>
      rw [hc] at hs
      simp only at hs
      have hlt := h.core i o c ho hc
      have hk : s.cores[c]? = some s.cores[c] := List.getElem?_eq_getElem hlt
      rw [hk] at hs
      simp only at hs
      cases ha : o.saved with
      | some a =>
        rw [ha] at hs
        simp only at hs
        split at hs
        · cases hs
          exact ⟨h, rfl, o, o, rfl, ho, rfl, rfl⟩
        · cases hs
          obtain ⟨e1, e2, e3, -⟩ := corePointers_frame s c s.cores[c]
          have hI := h.corePointers hk
          refine ⟨hI.setObj (o := o) (by rw [e2]; exact ho) (fun d hd => ?_) (fun b hb => ?_) (fun d k hd hk' hw => ?_) (fun d hd => Or.inl ?_), e3, o, _, rfl,
            setObj_get _ (by rw [e2]; exact hi), hc.symm, rfl⟩
          · exact hI.core i o d (by rw [e2]; exact ho) (by rw [hc]; exact hd)
          · cases hb
            rw [e1]
            exact h.saved i o a ho ha
          · obtain ⟨a', ha', e⟩ := hI.view i o d k (by rw [e2]; exact ho) (by rw [hc]; exact hd) hk' hw
            rw [ha] at ha'
            cases ha'
            exact ⟨_, rfl, e⟩
          · rw [hc] at hd
            exact hd
      | none =>
        rw [ha] at hs
        simp only at hs
        obtain ⟨k, rows, hk', hl, -⟩ := h.load ho hc
        rw [hk] at hk'
        cases hk'
        rw [hl, Option.map_some] at hs
        cases hs
        have hA := h.alloc rows
        have hkA : (alloc s rows).cores[c]? = some s.cores[c] := hk
        obtain ⟨e1, e2, e3, -⟩ := corePointers_frame (alloc s rows) c s.cores[c]
        have hI := hA.corePointers hkA
        refine ⟨hI.setObj (o := o) (by rw [e2]; exact ho) (fun d hd => ?_) (fun b hb => ?_) (fun d k hd hk' hw => ?_) (fun d hd => Or.inl ?_), e3, o, _, rfl,
          setObj_get _ (by rw [e2]; exact hi), hc.symm, rfl⟩
        · exact hI.core i o d (by rw [e2]; exact ho) (by rw [hc]; exact hd)
        · cases hb
          rw [e1]
          simp [Lifetime.alloc]
        · obtain ⟨a', ha', e⟩ := hI.view i o d k (by rw [e2]; exact ho) (by rw [hc]; exact hd) hk' hw
          rw [ha] at ha'
          cases ha'
        · rw [hc] at hd
          exact hd

/-- `_new_core` keeps the invariant, if the saved array of a spline with a core is the one the core uses, or if it does not raise. -/
theorem newCore_inv {count : P → Nat} {views : Bool} {s : State α P} (h : Inv s) {i : Nat} {o : Obj P} (ho : s.objs[i]? = some o) (hsingle : ∀ c, o.core = some c → ∀ m ∈ s.multis, c ∉ m)
    {r : Res α P} (hr : newCore count views s i = some r) : Inv r.state := by
  unfold newCore at hr
  rw [ho] at hr
  simp only at hr
  split at hr
  · rename_i a p ha hp
    have hb := h.saved i o a ho ha
    have hm : s.mem[a.block]? = some s.mem[a.block] := List.getElem?_eq_getElem hb
    rw [hm] at hr
    simp only at hr
    have hi : i < s.objs.length := by
      by_contra hne
      rw [List.getElem?_eq_none (by omega)] at ho
      cases ho
    have h1 : Inv (setObj s i { o with saved := some ⟨a.block, none⟩ }) := by
      refine h.setObj ho (fun c hc => h.core i o c ho hc) (fun b hb' => ?_) (fun c k hc hk hw => ?_) (fun c hc => Or.inl hc)
      · cases hb'
        exact hb
      · obtain ⟨a', ha', e⟩ := h.view i o c k ho hc hk hw
        rw [ha] at ha'
        cases ha'
        exact ⟨_, rfl, e⟩
    have ho1 : (setObj s i { o with saved := some ⟨a.block, none⟩ }).objs[i]? = some { o with saved := some ⟨a.block, none⟩ } := by simp [setObj, hi]
    split at hr
    · cases hr
      exact h1
    · split at hr
      · cases hr
        refine (h1.addCore (k := ⟨a.block, false, p, none⟩) hb).setObj ho1 (fun c hc => ?_) (fun b hb' => ?_) (fun c k hc hk hw => ?_) (fun c hc => Or.inr (hsingle c hc))
        · cases hc
          simp [setObj]
        · cases hb'
          exact hb
        · cases hc
          simp [setObj] at hk
          exact ⟨_, rfl, by rw [← hk]⟩
      · cases hr
        have h2 := h1.alloc s.mem[a.block]
        refine (h2.addCore (k := ⟨s.mem.length, true, p, none⟩) (by simp [setObj, alloc])).setObj (o := { o with saved := some ⟨a.block, none⟩ }) ho1 (fun c hc => ?_) (fun b hb' => ?_)
          (fun c k hc hk hw => ?_) (fun c hc => Or.inr (hsingle c hc))
        · cases hc
          simp [setObj, alloc]
        · cases hb'
          simp only [setObj, alloc, List.length_append]
          omega
        · cases hc
          simp [setObj, alloc] at hk
          rw [← hk] at hw
          cases hw
  · cases hr
    exact h

theorem cores_of_objs {s : State α P} : ∀ (is cs : List Nat), is.mapM (fun i => (s.objs[i]?).bind Obj.core) = some cs → ∀ c ∈ cs, ∃ (i : Nat) (o : Obj P), s.objs[i]? = some o ∧ o.core = some c := by
  intro is
  induction is with
  | nil =>
    intro cs h
    cases h
    simp
  | cons i is ih =>
    intro cs h
    rw [List.mapM_cons] at h
    simp only [Option.pure_def, Option.bind_eq_bind, Option.bind_eq_some_iff] at h
    obtain ⟨c0, ⟨o, ho, hoc⟩, cs0, h0, e⟩ := h
    cases e
    intro c hc
    rcases List.mem_cons.1 hc with rfl | hc
    · exact ⟨i, o, ho, hoc⟩
    · exact ih _ h0 c hc

theorem step_inv {count : P → Nat} {views : Bool} {s : State α P} (h : Inv s) {op : Op α P} (hok : Spec.Allowed count s op) {r : Res α P} (hr : step count views s op = some r) :
    Inv r.state := by
  have hconstruct : ∀ p rows r, construct count views s p rows = some r → Inv r.state := by
    intro p rows r hr
    unfold construct at hr
    simp only [Option.map_eq_some_iff] at hr
    obtain ⟨r', hr', rfl⟩ := hr
    have h1 := h.alloc rows
    have h2 : Inv { alloc s rows with objs := (alloc s rows).objs ++ [⟨none, some ⟨s.mem.length, none⟩, some p⟩] } := by
      refine h1.addObj (by simp) (fun a ha => ?_) (by simp)
      cases ha
      simp [alloc]
    split
    · exact h1
    · exact newCore_inv h2 (o := ⟨none, some ⟨s.mem.length, none⟩, some p⟩) (by simp [alloc]) (by simp) hr'
  cases op with
  | new p rows => exact hconstruct p rows r hr
  | setProps i p =>
    simp only [step, Option.bind_eq_some_iff] at hr
    obtain ⟨o, ho, s1, h1, hr⟩ := hr
    have hI : Inv (setObj s i { o with props := some p }) :=
      h.setObj ho (fun c hc => h.core i o c ho hc) (fun a ha => h.saved i o a ho ha) (fun c k hc hk hw => h.view i o c k ho hc hk hw) fun c hc => Or.inl hc
    obtain ⟨hI1, hm, x, y, hx, hy, e, -⟩ := prepare_inv hI h1
    have hi : i < s.objs.length := by
      by_contra hne
      rw [List.getElem?_eq_none (by omega)] at ho
      cases ho
    rw [setObj_get _ hi] at hx
    cases hx
    refine newCore_inv hI1 hy (fun c hc m hm' => ?_) hr
    rw [hm] at hm'
    exact hok o c ho (by rw [e] at hc; exact hc) m hm'
  | setCps i rows =>
    simp only [step, Option.bind_eq_some_iff] at hr
    obtain ⟨o, ho, hr⟩ := hr
    obtain ⟨hn, hs⟩ := hok
    have hi : i < s.objs.length := by
      by_contra hne
      rw [List.getElem?_eq_none (by omega)] at ho
      cases ho
    have hA := h.alloc rows
    cases hp : o.props.or ((o.core.bind fun c => s.cores[c]?).map Core.props) with
    | none =>
      have hcn : o.core = none := by
        cases hc : o.core with
        | none => rfl
        | some c =>
          have hk := List.getElem?_eq_getElem (h.core i o c ho hc)
          rw [hc, Option.bind_some, hk] at hp
          cases h' : o.props <;> rw [h'] at hp <;> cases hp
      refine newCore_inv (o := { o with saved := some ⟨s.mem.length, none⟩ }) ?_ (setObj_get (s := alloc s rows) _ hi) (by simp [hcn]) hr
      refine hA.setObj (o := o) ho (by simp [hcn]) (fun a ha => ?_) (by simp [hcn]) fun c hc => Or.inl hc
      cases ha
      simp [alloc]
    | some p =>
      have hlen : rows.length = count p := hn _ (by unfold Spec.needed; rw [ho, Option.bind_some, hp]; rfl)
      unfold newCore at hr
      rw [setObj_get _ (by simpa [alloc] using hi)] at hr
      simp only at hr
      have hp' : o.props.or ((o.core.bind fun c => (setObj (alloc s rows) i { o with saved := some ⟨s.mem.length, none⟩ }).cores[c]?).map Core.props) = some p := hp
      rw [hp'] at hr
      simp only at hr
      have hm : (setObj (alloc s rows) i { o with saved := some ⟨s.mem.length, none⟩ }).mem[s.mem.length]? = some rows := by simp [setObj, alloc]
      rw [hm] at hr
      simp only [hlen, ne_eq, not_true_eq_false, if_false] at hr
      have hset : ∀ (t : State α P) (x y : Obj P), setObj (setObj t i x) i y = setObj t i y := by
        intro t x y
        simp [setObj]
      split at hr
      · cases hr
        have hI := hA.addCore (k := ⟨s.mem.length, false, p, none⟩) (by simp [alloc])
        have := hI.setObj (i := i) (o := o) (o' := ⟨some s.cores.length, some ⟨s.mem.length, none⟩, some p⟩) ho (fun c hc => ?_) (fun a ha => ?_) (fun c k hc hk hw => ?_)
          fun c hc => Or.inr (hs o c ho hc)
        · simpa [setObj, alloc] using this
        · cases hc
          simp [alloc]
        · cases ha
          simp [alloc]
        · cases hc
          simp [alloc] at hk
          exact ⟨_, rfl, by rw [← hk]⟩
      · cases hr
        have hI := (hA.alloc rows).addCore (k := ⟨s.mem.length + 1, true, p, none⟩) (by simp [alloc])
        have := hI.setObj (i := i) (o := o) (o' := ⟨some s.cores.length, some ⟨s.mem.length, none⟩, some p⟩) ho (fun c hc => ?_) (fun a ha => ?_) (fun c k hc hk hw => ?_)
          fun c hc => Or.inr (hs o c ho hc)
        · simpa [setObj, alloc] using this
        · cases hc
          simp [alloc]
        · cases ha
          simp [alloc]
        · cases hc
          simp [alloc] at hk
          rw [← hk] at hw
          cases hw
  | clear i =>
    simp only [step, Option.map_eq_some_iff] at hr
    obtain ⟨o, ho, rfl⟩ := hr
    exact h.setObj ho (by simp) (by simp) (by simp) fun c hc => Or.inr (hok o c ho hc)
  | read i =>
    simp only [step, Option.bind_eq_some_iff, Option.map_eq_some_iff] at hr
    obtain ⟨s1, h1, o, ho, rfl⟩ := hr
    have := (prepare_inv h h1).1
    exact ⟨this.core, this.multi, this.block, this.saved, this.view⟩
  | release j =>
    simp only [step] at hr
    cases hr
    exact ⟨h.core, h.multi, h.block, h.saved, h.view⟩
  | write j row v =>
    have hstore : ∀ {t : State α P} b, Inv t → Inv (store t b row v) := by
      intro t b ht
      refine ⟨ht.core, ht.multi, fun c k hk => ?_, fun i o a ho ha => ?_, ht.view⟩
      · simpa [store] using ht.block c k hk
      · simpa [store] using ht.saved i o a ho ha
    simp only [step, Option.bind_eq_some_iff] at hr
    obtain ⟨a, -, rows, -, hr⟩ := hr
    split at hr
    · cases hr
      exact h
    · split at hr
      · cases hr
        exact hstore _ h
      · split at hr
        · cases hr
          exact hstore _ h
        · split at hr
          · cases hr
            exact hstore _ (hstore _ h)
          · cases hr
  | modify i result =>
    cases result with
    | none => exact hok.elim
    | some x =>
      obtain ⟨p, rows⟩ := x
      simp only [step, Option.bind_eq_some_iff] at hr
      obtain ⟨o, ho, hr⟩ := hr
      cases hc : o.core with
      | none =>
        rw [hc] at hr
        cases hr
        exact h
      | some c =>
        rw [hc] at hr
        simp only [Option.bind_eq_some_iff, Option.map_eq_some_iff] at hr
        obtain ⟨k, hk, -, -, rfl⟩ := hr
        have hA := h.alloc rows
        have hI : Inv { alloc s rows with cores := (alloc s rows).cores.set c ⟨s.mem.length, true, p, k.pointers⟩ } := by
          refine ⟨fun i o d ho hd => ?_, hA.multi, fun d k' hk' => ?_, hA.saved, fun i o d k' ho hd hk' hw => ?_⟩
          · simpa using hA.core i o d ho hd
          · obtain ⟨rfl, rfl⟩ | ⟨-, hk'⟩ := getElem?_set' hk'
            · simp [alloc]
            · exact hA.block d k' hk'
          · obtain ⟨rfl, rfl⟩ | ⟨-, hk'⟩ := getElem?_set' hk'
            · cases hw
            · exact hA.view i o d k' ho hd hk' hw
        refine hI.setObj (o := o) ho (fun d hd => ?_) (by simp) (fun d k' hd hk' hw => ?_) fun d hd => Or.inl (by rw [hc] at hd; exact hd)
        · exact hI.core i o d ho (by rw [hc]; exact hd)
        · cases hd
          obtain ⟨-, rfl⟩ | ⟨h', -⟩ := getElem?_set' hk'
          · cases hw
          · exact absurd rfl h'
  | share i =>
    simp only [step, Option.map_eq_some_iff] at hr
    obtain ⟨o, ho, rfl⟩ := hr
    exact h.addObj (fun c hc => h.core i o c ho hc) (fun a ha => h.saved i o a ho ha) fun c k hc hk hw => h.view i o c k ho hc hk hw
  | copy i =>
    simp only [step, Option.bind_eq_some_iff] at hr
    obtain ⟨o, ho, hr⟩ := hr
    cases hc : o.core with
    | none =>
      rw [hc] at hr
      cases hr
      exact h
    | some c =>
      rw [hc] at hr
      simp only [Option.bind_eq_some_iff] at hr
      obtain ⟨k, -, rows, -, hr⟩ := hr
      exact hconstruct _ _ r hr
  | multi is =>
    simp only [step] at hr
    split at hr
    · cases hr
      exact h
    · rename_i cs hcs
      cases hr
      refine ⟨h.core, fun m hm c hc => ?_, h.block, h.saved, h.view⟩
      rw [List.mem_append, List.mem_singleton] at hm
      rcases hm with hm | rfl
      · exact h.multi m hm c hc
      · exact cores_of_objs is _ hcs c hc
  | evaluate i =>
    simp only [step, Option.bind_eq_some_iff] at hr
    obtain ⟨o, ho, hr⟩ := hr
    cases hc : o.core with
    | none =>
      rw [hc] at hr
      cases hr
      exact h
    | some c =>
      rw [hc] at hr
      simp only [Option.map_eq_some_iff] at hr
      obtain ⟨-, -, rfl⟩ := hr
      exact h
  | evaluateMulti m =>
    simp only [step, Option.bind_eq_some_iff, Option.map_eq_some_iff] at hr
    obtain ⟨-, -, -, -, rfl⟩ := hr
    exact h

theorem run_inv {count : P → Nat} {views : Bool} : ∀ {ops : List (Op α P)} {s s' : State α P}, Inv s → Spec.AllAllowed count views s ops → run count views s ops = some s' → Inv s'
  | [], s, s', h, _, hr => by
    cases hr
    exact h
  | op :: ops, s, s', h, hok, hr => by
    unfold run at hr
    rw [List.foldlM_cons] at hr
    simp only [Option.bind_eq_bind, Option.bind_eq_some_iff, Option.map_eq_some_iff] at hr
    obtain ⟨s1, ⟨r, hr1, rfl⟩, hr2⟩ := hr
    exact run_inv (step_inv h hok.1 hr1) (hok.2 r hr1) hr2

/-! ### the property -/

/-- C117, for histories of allowed calls (the others: see below). -/
theorem evaluable_partial (count : P → Nat) (views : Bool) (ops : List (Op α P)) (s : State α P) (hok : Spec.AllAllowed count views {} ops) (hr : run count views {} ops = some s) :
    Spec.Evaluable count views s := (run_inv inv_empty hok hr).evaluable count views

/-- A multipatch of two curves, of which one is then refined; a copy of the other is changed. -/
example : ∃ s : State Nat Nat, run id true {} [.new 2 [0, 1], .new 2 [1, 5], .multi [0, 1], .modify 0 (some (3, [0, 7, 1])), .copy 1, .setCps 2 [8, 9], .setProps 2 2] = some s ∧
    Spec.AllAllowed id true ({} : State Nat Nat) [.new 2 [0, 1], .new 2 [1, 5], .multi [0, 1], .modify 0 (some (3, [0, 7, 1])), .copy 1, .setCps 2 [8, 9], .setProps 2 2] ∧
    evaluated s 0 = some [0, 7, 1] ∧ evaluated s 1 = some [1, 5] ∧ evaluated s 2 = some [8, 9] := by
  refine ⟨_, rfl, ?_, by decide, by decide, by decide⟩
  refine ⟨trivial, fun r hr => ?_⟩
  cases hr
  refine ⟨trivial, fun r hr => ?_⟩
  cases hr
  refine ⟨trivial, fun r hr => ?_⟩
  cases hr
  refine ⟨trivial, fun r hr => ?_⟩
  cases hr
  refine ⟨trivial, fun r hr => ?_⟩
  cases hr
  refine ⟨⟨fun n hn => ?_, fun o c ho hc m hm => ?_⟩, fun r hr => ?_⟩
  · cases hn
    rfl
  · cases ho
    cases hc
    cases hm with
    | head => decide
    | tail _ h => cases h
  cases hr
  refine ⟨fun o c ho hc m hm => ?_, fun r hr => trivial⟩
  cases ho
  cases hc
  cases hm with
  | head => decide
  | tail _ h => cases h

/-- Assigning too few or too many control points raises, and leaves a B-spline that reads freed memory when it is evaluated. -/
theorem rejected_control_points_violates (count : P → Nat) (p : P) (rows bad : List α) (h : rows.length = count p) (hb : bad.length ≠ count p) :
    ∃ s s', run count true {} [.new p rows] = some s ∧ step count true s (.setCps 0 bad) = some ⟨s', true⟩ ∧ step count true s (.evaluate 0) ≠ none ∧
      step count true s' (.evaluate 0) = none := by
  refine ⟨⟨[rows], [⟨0, false, p, none⟩], [], [⟨some 0, some ⟨0, none⟩, some p⟩], [], []⟩, ⟨[rows, bad], [⟨0, false, p, none⟩], [], [⟨some 0, some ⟨1, none⟩, some p⟩], [], []⟩, ?_, ?_, ?_, ?_⟩
  · simp [run, step, construct, newCore, alloc, setObj, h]
  · simp [step, newCore, alloc, setObj, hb]
  · simp [step, State.loadCore, State.load, State.alive]
  · simp [step, State.loadCore, State.load, State.alive]

/-- `insert_knots` with nothing to insert (a knot at the bounds of the parameter space: `splinepy/bspline.py` 108-121) leaves a B-spline that reads freed memory when it is evaluated. -/
theorem insert_nothing_violates (count : P → Nat) (p : P) (rows : List α) (h : rows.length = count p) :
    ∃ s, run count true {} [.new p rows, .modify 0 none] = some s ∧ step count true s (.evaluate 0) = none := by
  refine ⟨⟨[rows], [⟨0, false, p, none⟩], [], [⟨some 0, none, none⟩], [], []⟩, ?_, ?_⟩
  · simp [run, step, construct, newCore, alloc, setObj, h]
  · simp [step, State.loadCore, State.load, State.alive]

/-- Assigning control points, in the right number, to a B-spline that is a patch of a multipatch: the multipatch reads freed memory when it is evaluated. -/
theorem patch_assigned_violates (count : P → Nat) (p : P) (rows new : List α) (h : rows.length = count p) (hn : new.length = count p) :
    ∃ s, run count true {} [.new p rows, .multi [0], .setCps 0 new] = some s ∧ step count true s (.evaluate 0) ≠ none ∧ step count true s (.evaluateMulti 0) = none := by
  refine ⟨⟨[rows, new], [⟨0, false, p, none⟩, ⟨1, false, p, none⟩], [], [⟨some 1, some ⟨1, none⟩, some p⟩], [], [[0]]⟩, ?_, ?_, ?_⟩
  · simp [run, step, construct, newCore, alloc, setObj, h, hn]
  · simp [step, State.loadCore, State.load, State.alive]
  · simp [step, State.loadCore, State.load, State.alive, List.range, List.range.loop]

/-! ### no call reads freed memory -/

/-- The spline, array or multipatch of the call exists; assignments to arrays are left to C118. -/
def Spec.Exists (s : State α P) : Op α P → Prop
  | .new _ _ => True
  | .setProps i _ => i < s.objs.length
  | .setCps i _ => i < s.objs.length
  | .clear i => i < s.objs.length
  | .read i => i < s.objs.length
  | .release _ => True
  | .write _ _ _ => False
  | .modify i _ => i < s.objs.length
  | .share i => i < s.objs.length
  | .copy i => i < s.objs.length
  | .multi _ => True
  | .evaluate i => i < s.objs.length
  | .evaluateMulti m => m < s.multis.length

theorem prepare_defined {s : State α P} (h : Inv s) {i : Nat} (hi : i < s.objs.length) : ∃ s1, prepare s i = some s1 := by
  obtain ⟨o, ho⟩ : ∃ o, s.objs[i]? = some o := ⟨_, List.getElem?_eq_getElem hi⟩
  unfold prepare
  rw [ho]
  simp only
  cases hc : o.core with
  | none => exact ⟨_, rfl⟩
  | some c =>
    obtain ⟨k, rows, hk, hl, -⟩ := h.load ho hc
    simp only [hk]
    cases o.saved with
    | none =>
      simp only [hl, Option.map_some]
      exact ⟨_, rfl⟩
    | some a =>
      simp only
      split
      · exact ⟨_, rfl⟩
      · exact ⟨_, rfl⟩

theorem newCore_defined {count : P → Nat} {views : Bool} {s : State α P} {i : Nat} {o : Obj P} (ho : s.objs[i]? = some o) (hs : ∀ a, o.saved = some a → a.block < s.mem.length) :
    ∃ r, newCore count views s i = some r := by
  unfold newCore
  rw [ho]
  simp only
  split
  · rename_i a p ha hp
    rw [List.getElem?_eq_getElem (hs a ha)]
    simp only
    split
    · exact ⟨_, rfl⟩
    · split
      · exact ⟨_, rfl⟩
      · exact ⟨_, rfl⟩
  · exact ⟨_, rfl⟩

/-- C117, the calls themselves: in a history of allowed calls, none but an assignment to an array reads freed memory. -/
theorem calls_defined_partial (count : P → Nat) (views : Bool) (ops : List (Op α P)) (s : State α P) (hok : Spec.AllAllowed count views {} ops) (hr : run count views {} ops = some s)
    (op : Op α P) (he : Spec.Exists s op) : step count views s op ≠ none := by
  have h := run_inv inv_empty hok hr
  have hconstruct : ∀ p rows, construct count views s p rows ≠ none := by
    intro p rows
    obtain ⟨r, hr⟩ := newCore_defined (count := count) (views := views) (s := { alloc s rows with objs := (alloc s rows).objs ++ [⟨none, some ⟨s.mem.length, none⟩, some p⟩] })
      (i := s.objs.length) (o := ⟨none, some ⟨s.mem.length, none⟩, some p⟩) (by simp [alloc]) (by
        intro a ha
        cases ha
        simp [alloc])
    simp [construct, hr]
  have hobj : ∀ i, i < s.objs.length → ∃ o, s.objs[i]? = some o := fun i hi => ⟨_, List.getElem?_eq_getElem hi⟩
  cases op with
  | new p rows => exact hconstruct p rows
  | setProps i p =>
    obtain ⟨o, ho⟩ := hobj i he
    have hI : Inv (setObj s i { o with props := some p }) :=
      h.setObj ho (fun c hc => h.core i o c ho hc) (fun a ha => h.saved i o a ho ha) (fun c k hc hk hw => h.view i o c k ho hc hk hw) fun c hc => Or.inl hc
    obtain ⟨s1, h1⟩ := prepare_defined hI (i := i) (by simpa [setObj, Spec.Exists] using he)
    obtain ⟨hI1, -, x, y, -, hy, -, -⟩ := prepare_inv hI h1
    obtain ⟨r, hr⟩ := newCore_defined (count := count) (views := views) hy (fun a ha => hI1.saved i y a hy ha)
    simp [step, ho, h1, hr]
  | setCps i rows =>
    obtain ⟨o, ho⟩ := hobj i he
    obtain ⟨r, hr⟩ := newCore_defined (count := count) (views := views) (setObj_get (s := alloc s rows) { o with saved := some ⟨s.mem.length, none⟩ } he) (by
      intro a ha
      cases ha
      simp [setObj, alloc])
    simp [step, ho, hr]
  | clear i =>
    obtain ⟨o, ho⟩ := hobj i he
    simp [step, ho]
  | read i =>
    obtain ⟨s1, h1⟩ := prepare_defined h he
    obtain ⟨-, -, x, y, -, hy, -, -⟩ := prepare_inv h h1
    simp [step, h1, hy]
  | release j => simp [step]
  | write j row v => exact he.elim
  | modify i result =>
    obtain ⟨o, ho⟩ := hobj i he
    simp only [step, ho, Option.bind_some]
    cases hc : o.core with
    | none => simp
    | some c =>
      obtain ⟨k, rows, hk, hl, -⟩ := h.load ho hc
      cases result with
      | none => simp [hk]
      | some x => simp [hk, hl]
  | share i =>
    obtain ⟨o, ho⟩ := hobj i he
    simp [step, ho]
  | copy i =>
    obtain ⟨o, ho⟩ := hobj i he
    simp only [step, ho, Option.bind_some]
    cases hc : o.core with
    | none => simp
    | some c =>
      obtain ⟨k, rows, hk, hl, -⟩ := h.load ho hc
      simpa [hk, hl] using hconstruct k.props rows
  | multi is =>
    simp only [step]
    split <;> simp
  | evaluate i => exact (h.evaluable count views).1 i he
  | evaluateMulti m => exact (h.evaluable count views).2 m he

/-! ### Bezier splines -/

/-- Cores that own their memory. -/
structure InvOwned (s : State α P) : Prop where
  core : ∀ (i : Nat) o c, s.objs[i]? = some o → o.core = some c → c < s.cores.length
  multi : ∀ m ∈ s.multis, ∀ c ∈ m, c < s.cores.length
  block : ∀ (c : Nat) k, s.cores[c]? = some k → k.block < s.mem.length ∧ k.owned = true

theorem InvOwned.alloc {s : State α P} (h : InvOwned s) (rows : List α) : InvOwned (alloc s rows) := by
  refine ⟨h.core, h.multi, fun c k hk => ⟨?_, (h.block c k hk).2⟩⟩
  have := (h.block c k hk).1
  simp only [Lifetime.alloc, List.length_append]
  omega

theorem InvOwned.setObj {s : State α P} (h : InvOwned s) {i : Nat} {o' : Obj P} (hcore : ∀ c, o'.core = some c → c < s.cores.length) : InvOwned (setObj s i o') := by
  refine ⟨fun j x c hx hc => ?_, h.multi, h.block⟩
  obtain ⟨-, rfl⟩ | ⟨-, hx⟩ := getElem?_set' hx
  · exact hcore c hc
  · exact h.core j x c hx hc

theorem InvOwned.addObj {s : State α P} (h : InvOwned s) {o : Obj P} (hcore : ∀ c, o.core = some c → c < s.cores.length) : InvOwned { s with objs := s.objs ++ [o] } := by
  refine ⟨fun j x c hx hc => ?_, h.multi, h.block⟩
  rcases getElem?_append' hx with hx | ⟨-, rfl⟩
  · exact h.core j x c hx hc
  · exact hcore c hc

theorem InvOwned.addCore {s : State α P} (h : InvOwned s) {k : Core P} (hk : k.block < s.mem.length) (hw : k.owned = true) : InvOwned { s with cores := s.cores ++ [k] } := by
  refine ⟨fun j x c hx hc => ?_, fun m hm c hc => ?_, fun c k' hk' => ?_⟩
  · have := h.core j x c hx hc
    simp only [List.length_append]
    omega
  · have := h.multi m hm c hc
    simp only [List.length_append]
    omega
  · rcases getElem?_append' hk' with hk' | ⟨-, rfl⟩
    · exact h.block c k' hk'
    · exact ⟨hk, hw⟩

theorem InvOwned.corePointers {s : State α P} (h : InvOwned s) {c : Nat} {k : Core P} (hk : s.cores[c]? = some k) : InvOwned (corePointers s c k).1 := by
  obtain ⟨e1, e2, e3, -⟩ := corePointers_frame s c k
  obtain ⟨e4, e5⟩ := corePointers_cores hk
  refine ⟨fun i o d ho hd => ?_, fun m hm d hd => ?_, fun d k' hk' => ?_⟩
  · rw [e2] at ho
    rw [e4]
    exact h.core i o d ho hd
  · rw [e3] at hm
    rw [e4]
    exact h.multi m hm d hd
  · obtain ⟨k0, h0, eb, ew, -⟩ := e5 d k' hk'
    rw [e1, eb, ew]
    exact h.block d k0 h0

theorem prepare_owned {s s1 : State α P} {i : Nat} (h : InvOwned s) (h1 : prepare s i = some s1) : InvOwned s1 := by
  unfold prepare at h1
  cases ho : s.objs[i]? with
  | none => rw [ho] at h1; cases h1
  | some o =>
    rw [ho] at h1
    simp only at h1
    cases hc : o.core with
    | none =>
      rw [hc] at h1
      cases h1
      exact h
    | some c =>
      rw [hc] at h1
      simp only at h1
      cases hk : s.cores[c]? with
      | none => rw [hk] at h1; cases h1
      | some k =>
        rw [hk] at h1
        simp only at h1
        cases hs : o.saved with
        | some a =>
          rw [hs] at h1
          simp only at h1
          split at h1
          · cases h1
            exact h
          · cases h1
            refine (h.corePointers hk).setObj fun d hd => ?_
            cases hd
            rw [(corePointers_cores hk).1]
            exact h.core i o c ho hc
        | none =>
          rw [hs] at h1
          simp only [Option.map_eq_some_iff] at h1
          obtain ⟨rows, -, rfl⟩ := h1
          refine ((h.alloc rows).corePointers (c := c) hk).setObj fun d hd => ?_
          cases hd
          rw [(corePointers_cores (s := alloc s rows) hk).1]
          exact h.core i o c ho hc

theorem newCore_owned {count : P → Nat} {s : State α P} {i : Nat} {r : Res α P} (h : InvOwned s) (hr : newCore count false s i = some r) : InvOwned r.state := by
  unfold newCore at hr
  cases ho : s.objs[i]? with
  | none => rw [ho] at hr; cases hr
  | some o =>
    rw [ho] at hr
    simp only at hr
    split at hr
    · rename_i a p ha hp
      split at hr
      · cases hr
      · rename_i rows hrows
        have h1 : InvOwned (setObj s i { o with saved := some ⟨a.block, none⟩ }) := h.setObj fun c hc => h.core i o c ho hc
        split at hr
        · cases hr
          exact h1
        · simp only [Bool.false_eq_true, if_false] at hr
          cases hr
          refine ((h1.alloc rows).addCore (by simp [alloc]) rfl).setObj fun c hc => ?_
          cases hc
          simp
    · cases hr
      exact h

theorem step_owned {count : P → Nat} {s : State α P} (h : InvOwned s) {op : Op α P} {r : Res α P} (hr : step count false s op = some r) : InvOwned r.state := by
  have hconstruct : ∀ p rows r, construct count false s p rows = some r → InvOwned r.state := by
    intro p rows r hr
    unfold construct at hr
    simp only [Option.map_eq_some_iff] at hr
    obtain ⟨r', hr', rfl⟩ := hr
    have h1 := h.alloc rows
    split
    · exact h1
    · exact newCore_owned (h1.addObj (by simp)) hr'
  have hstore : ∀ {t : State α P} (b row : Nat) (v : α), InvOwned t → InvOwned (store t b row v) := by
    intro t b row v ht
    exact ⟨ht.core, ht.multi, fun c k hk => by simpa [store] using ht.block c k hk⟩
  cases op with
  | new p rows => exact hconstruct p rows r hr
  | setProps i p =>
    simp only [step, Option.bind_eq_some_iff] at hr
    obtain ⟨o, ho, s1, h1, hr⟩ := hr
    exact newCore_owned (prepare_owned (h.setObj (o' := { o with props := some p }) fun c hc => h.core i o c ho hc) h1) hr
  | setCps i rows =>
    simp only [step, Option.bind_eq_some_iff] at hr
    obtain ⟨o, ho, hr⟩ := hr
    exact newCore_owned ((h.alloc rows).setObj (o' := { o with saved := some ⟨s.mem.length, none⟩ }) fun c hc => h.core i o c ho hc) hr
  | clear i =>
    simp only [step, Option.map_eq_some_iff] at hr
    obtain ⟨o, ho, rfl⟩ := hr
    exact h.setObj (by simp)
  | read i =>
    simp only [step, Option.bind_eq_some_iff, Option.map_eq_some_iff] at hr
    obtain ⟨s1, h1, o, ho, rfl⟩ := hr
    have := prepare_owned h h1
    exact ⟨this.core, this.multi, this.block⟩
  | release j =>
    simp only [step] at hr
    cases hr
    exact ⟨h.core, h.multi, h.block⟩
  | write j row v =>
    simp only [step, Option.bind_eq_some_iff] at hr
    obtain ⟨a, -, rows, -, hr⟩ := hr
    split at hr
    · cases hr
      exact h
    · split at hr
      · cases hr
        exact hstore _ _ _ h
      · split at hr
        · cases hr
          exact hstore _ _ _ h
        · split at hr
          · cases hr
            exact hstore _ _ _ (hstore _ _ _ h)
          · cases hr
  | modify i result =>
    simp only [step, Option.bind_eq_some_iff] at hr
    obtain ⟨o, ho, hr⟩ := hr
    cases hc : o.core with
    | none =>
      rw [hc] at hr
      cases hr
      exact h
    | some c =>
      rw [hc] at hr
      simp only [Option.bind_eq_some_iff] at hr
      obtain ⟨k, hk, hr⟩ := hr
      cases result with
      | none =>
        cases hr
        refine h.setObj fun d hd => ?_
        exact h.core i o d ho (by rw [hc]; exact hd)
      | some x =>
        obtain ⟨p, rows⟩ := x
        simp only [Option.map_eq_some_iff] at hr
        obtain ⟨-, -, rfl⟩ := hr
        have hA := h.alloc rows
        have hI : InvOwned { alloc s rows with cores := (alloc s rows).cores.set c ⟨s.mem.length, true, p, k.pointers⟩ } := by
          refine ⟨fun i o d ho hd => ?_, fun m hm d hd => ?_, fun d k' hk' => ?_⟩
          · simpa using hA.core i o d ho hd
          · simpa using hA.multi m hm d hd
          · obtain ⟨rfl, rfl⟩ | ⟨-, hk'⟩ := getElem?_set' hk'
            · simp [alloc]
            · exact hA.block d k' hk'
        exact hI.setObj fun d hd => hI.core i o d ho (by rw [hc]; exact hd)
  | share i =>
    simp only [step, Option.map_eq_some_iff] at hr
    obtain ⟨o, ho, rfl⟩ := hr
    exact h.addObj fun c hc => h.core i o c ho hc
  | copy i =>
    simp only [step, Option.bind_eq_some_iff] at hr
    obtain ⟨o, ho, hr⟩ := hr
    cases hc : o.core with
    | none =>
      rw [hc] at hr
      cases hr
      exact h
    | some c =>
      rw [hc] at hr
      simp only [Option.bind_eq_some_iff] at hr
      obtain ⟨k, -, rows, -, hr⟩ := hr
      exact hconstruct _ _ r hr
  | multi is =>
    simp only [step] at hr
    split at hr
    · cases hr
      exact h
    · rename_i cs hcs
      cases hr
      refine ⟨h.core, fun m hm c hc => ?_, h.block⟩
      rw [List.mem_append, List.mem_singleton] at hm
      rcases hm with hm | rfl
      · exact h.multi m hm c hc
      · obtain ⟨i, o, ho, hoc⟩ := cores_of_objs is _ hcs c hc
        exact h.core i o c ho hoc
  | evaluate i =>
    simp only [step, Option.bind_eq_some_iff] at hr
    obtain ⟨o, ho, hr⟩ := hr
    cases hc : o.core with
    | none =>
      rw [hc] at hr
      cases hr
      exact h
    | some c =>
      rw [hc] at hr
      simp only [Option.map_eq_some_iff] at hr
      obtain ⟨-, -, rfl⟩ := hr
      exact h
  | evaluateMulti m =>
    simp only [step, Option.bind_eq_some_iff, Option.map_eq_some_iff] at hr
    obtain ⟨-, -, -, -, rfl⟩ := hr
    exact h

theorem run_owned {count : P → Nat} : ∀ {ops : List (Op α P)} {s s' : State α P}, InvOwned s → run count false s ops = some s' → InvOwned s'
  | [], s, s', h, hr => by
    cases hr
    exact h
  | op :: ops, s, s', h, hr => by
    unfold run at hr
    rw [List.foldlM_cons] at hr
    simp only [Option.bind_eq_bind, Option.bind_eq_some_iff, Option.map_eq_some_iff] at hr
    obtain ⟨s1, ⟨r, hr1, rfl⟩, hr2⟩ := hr
    exact run_owned (step_owned h hr1) hr2

theorem InvOwned.load {s : State α P} (h : InvOwned s) {c : Nat} (hc : c < s.cores.length) (hr : s.referenced c = true) : ∃ rows, s.loadCore c = some rows := by
  have hk : s.cores[c]? = some s.cores[c] := List.getElem?_eq_getElem hc
  obtain ⟨hb, hw⟩ := h.block c _ hk
  refine ⟨s.mem[s.cores[c].block], ?_⟩
  unfold State.loadCore State.load
  rw [hk, Option.bind_some, if_pos (alive_owned hr hk hw), List.getElem?_eq_getElem hb]

/-- C117 for Bezier splines, which have a copy of their control points: after every history of calls without undefined behaviour, all splines and all multipatches can be evaluated. -/
theorem bezier_evaluable (count : P → Nat) (ops : List (Op α P)) (s : State α P) (hr : run count false {} ops = some s) : Spec.Evaluable count false s := by
  have h : InvOwned s := run_owned ⟨by simp, by simp, by simp⟩ hr
  constructor
  · intro i hi
    obtain ⟨o, ho⟩ : ∃ o, s.objs[i]? = some o := ⟨_, List.getElem?_eq_getElem hi⟩
    unfold step
    simp only [ho, Option.bind_some]
    cases hc : o.core with
    | none => simp
    | some c =>
      obtain ⟨rows, h2⟩ := h.load (h.core i o c ho hc) (referenced_iff.2 (Or.inl ⟨i, o, ho, hc⟩))
      simp [h2]
  · intro m hm
    obtain ⟨cs, hcs⟩ : ∃ cs, s.multis[m]? = some cs := ⟨_, List.getElem?_eq_getElem hm⟩
    have hmem := List.mem_of_getElem? hcs
    have hl : ∀ c ∈ cs, ∃ rows, s.loadCore c = some rows := fun c hc => h.load (h.multi cs hmem c hc) (referenced_iff.2 (Or.inr ⟨cs, hmem, hc⟩))
    unfold step
    simp only [hcs, Option.bind_some]
    have : ∀ cs : List Nat, (∀ c ∈ cs, ∃ rows, s.loadCore c = some rows) → ∃ x, cs.mapM (fun c => s.loadCore c) = some x := by
      intro cs
      induction cs with
      | nil => exact fun _ => ⟨[], rfl⟩
      | cons c cs ih =>
        intro hl
        obtain ⟨x, hx⟩ := ih fun c hc => hl c (List.mem_cons_of_mem _ hc)
        obtain ⟨y, hy⟩ := hl c List.mem_cons_self
        exact ⟨y :: x, by simp [List.mapM_cons, hx, hy]⟩
    obtain ⟨x, hx⟩ := this cs hl
    simp [hx]

/-- The three calls that break B-splines, on Bezier splines. -/
example : ∃ s : State Nat Nat, run id false {} [.new 2 [0, 1], .multi [0], .setCps 0 [0, 1, 2], .setCps 0 [4, 5], .modify 0 none] = some s ∧ evaluated s 0 = some [4, 5] ∧
    s.multis = [[0]] ∧ s.loadCore 0 = some [0, 1] := ⟨_, rfl, by decide, by decide, by decide⟩

end Splinepy.Lifetime
