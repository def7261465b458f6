import Verif.Props.Lifetime
import Mathlib.Order.Basic
import Mathlib.Order.Nat
import Mathlib.Tactic.ByContra

/-!
C128: copies are independent. Everything in memory gets a label; calls that name things of one label leave the things of the other label as they are.
-/
namespace Splinepy.Copies

open Splinepy.Lifetime

variable {α P : Type}

/-! ### Specification -/

/-- The degrees and knot vectors with which a spline is evaluated. -/
def propertiesOf (s : State α P) (i : Nat) : Option P := ((s.objs[i]?).bind Obj.core).bind (fun c => (s.cores[c]?).map Core.props)

/-- The call, made for one side, names only splines and arrays of that side; constructing, copying and evaluating may name any. -/
def Spec.Named (obj held : Nat → Bool) (x : Bool) : Op α P → Prop
  | .new _ _ | .copy _ | .evaluate _ | .evaluateMulti _ => True
  | .setProps i _ | .setCps i _ | .clear i | .read i | .modify i _ | .share i => obj i = x
  | .release j | .write j _ _ => held j = x
  | .multi is => ∀ i ∈ is, obj i = x

/-- What is made from now on belongs to side `x`. -/
def Spec.grow (f : Nat → Bool) (n : Nat) (x : Bool) : Nat → Bool := fun k => if k < n then f k else x

/-- Every call of the history names only things of the side it is made for; what a call makes belongs to its side. -/
def Spec.Apart (count : P → Nat) (views : Bool) : (Nat → Bool) → (Nat → Bool) → State α P → List (Bool × Op α P) → Prop
  | _, _, _, [] => True
  | obj, held, s, (x, op) :: ops => Spec.Named obj held x op ∧
    ∀ r, step count views s op = some r → Spec.Apart count views (Spec.grow obj s.objs.length x) (Spec.grow held s.held.length x) r.state ops

/-- No call of the history changes what a spline or an array of the other side is: control points and properties of splines, rows of arrays. -/
def Spec.Undisturbed (count : P → Nat) (views : Bool) : (Nat → Bool) → (Nat → Bool) → State α P → List (Bool × Op α P) → Prop
  | _, _, _, [] => True
  | obj, held, s, (x, op) :: ops => ∀ r, step count views s op = some r →
    (∀ k < s.objs.length, obj k ≠ x → evaluated r.state k = evaluated s k ∧ propertiesOf r.state k = propertiesOf s k) ∧
    (∀ j < s.held.length, held j ≠ x → shown r.state j = shown s j) ∧
    Spec.Undisturbed count views (Spec.grow obj s.objs.length x) (Spec.grow held s.held.length x) r.state ops

/-! ### Labels -/

/-- Labels of spline objects, memory blocks, cores, pointers and arrays of the user. -/
structure Label where
  obj : Nat → Bool
  block : Nat → Bool
  core : Nat → Bool
  ptr : Nat → Bool
  held : Nat → Bool

/-- An array has label `x` and refers to existing things. -/
def ArrOk (L : Label) (s : State α P) (a : Arr) (x : Bool) : Prop :=
  a.block < s.mem.length ∧ L.block a.block = x ∧ ∀ q, a.source = some q → q < s.pointers.length ∧ L.ptr q = x

/-- A spline object refers to existing things of label `x`. -/
def ObjOk (L : Label) (s : State α P) (o : Obj P) (x : Bool) : Prop :=
  (∀ c, o.core = some c → c < s.cores.length ∧ L.core c = x) ∧ ∀ a, o.saved = some a → ArrOk L s a x

/-- A core refers to existing things of label `x`. -/
def CoreOk (L : Label) (s : State α P) (k : Core P) (x : Bool) : Prop :=
  k.block < s.mem.length ∧ L.block k.block = x ∧ ∀ q, k.pointers = some q → q < s.pointers.length ∧ L.ptr q = x

/-- Nothing refers to a thing of another label. -/
structure Cons (L : Label) (s : State α P) : Prop where
  obj : ∀ (i : Nat) (o : Obj P), s.objs[i]? = some o → ObjOk L s o (L.obj i)
  core : ∀ (c : Nat) (k : Core P), s.cores[c]? = some k → CoreOk L s k (L.core c)
  ptr : ∀ (q : Nat) (p : Pointers), s.pointers[q]? = some p → p.core < s.cores.length ∧ L.core p.core = L.ptr q ∧ p.block < s.mem.length ∧ L.block p.block = L.ptr q
  held : ∀ (h : Nat) (a : Arr), s.held[h]? = some (some a) → ArrOk L s a (L.held h)
  multi : ∀ m ∈ s.multis, ∀ c ∈ m, c < s.cores.length

/-- Everything that does not exist yet has label `x`. -/
structure Fresh (L : Label) (x : Bool) (s : State α P) : Prop where
  mem : ∀ k, s.mem.length ≤ k → L.block k = x
  cores : ∀ k, s.cores.length ≤ k → L.core k = x
  pointers : ∀ k, s.pointers.length ≤ k → L.ptr k = x
  objs : ∀ k, s.objs.length ≤ k → L.obj k = x
  held : ∀ k, s.held.length ≤ k → L.held k = x

/-- Things of the label other than `x` are the same. -/
structure Keep (L : Label) (x : Bool) (s s' : State α P) : Prop where
  memLen : s.mem.length ≤ s'.mem.length
  coresLen : s.cores.length ≤ s'.cores.length
  pointersLen : s.pointers.length ≤ s'.pointers.length
  objsLen : s.objs.length ≤ s'.objs.length
  heldLen : s.held.length ≤ s'.held.length
  mem : ∀ b, L.block b ≠ x → s'.mem[b]? = s.mem[b]?
  core : ∀ c, L.core c ≠ x → s'.cores[c]? = s.cores[c]?
  obj : ∀ i, L.obj i ≠ x → s'.objs[i]? = s.objs[i]?
  held : ∀ h, L.held h ≠ x → s'.held[h]? = s.held[h]?
  multi : ∃ l, s'.multis = s.multis ++ l ∧ ∀ m ∈ l, ∀ c ∈ m, L.core c = x

theorem Keep.refl (L : Label) (x : Bool) (s : State α P) : Keep L x s s :=
  ⟨le_refl _, le_refl _, le_refl _, le_refl _, le_refl _, fun _ _ => rfl, fun _ _ => rfl, fun _ _ => rfl, fun _ _ => rfl, [], by simp, by simp⟩

theorem Keep.trans {L : Label} {x : Bool} {s t u : State α P} (h : Keep L x s t) (h' : Keep L x t u) : Keep L x s u := by
  obtain ⟨l, hl, hl'⟩ := h.multi
  obtain ⟨l2, hl2, hl2'⟩ := h'.multi
  refine ⟨h.memLen.trans h'.memLen, h.coresLen.trans h'.coresLen, h.pointersLen.trans h'.pointersLen, h.objsLen.trans h'.objsLen, h.heldLen.trans h'.heldLen,
    fun b hb => (h'.mem b hb).trans (h.mem b hb), fun b hb => (h'.core b hb).trans (h.core b hb), fun b hb => (h'.obj b hb).trans (h.obj b hb),
    fun b hb => (h'.held b hb).trans (h.held b hb), l ++ l2, by rw [hl2, hl, List.append_assoc], ?_⟩
  intro m hm
  rcases List.mem_append.1 hm with hm | hm
  · exact hl' m hm
  · exact hl2' m hm

theorem Fresh.keep {L : Label} {x : Bool} {s t : State α P} (h : Fresh L x s) (k : Keep L x s t) : Fresh L x t :=
  ⟨fun j hj => h.mem j (k.memLen.trans hj), fun j hj => h.cores j (k.coresLen.trans hj), fun j hj => h.pointers j (k.pointersLen.trans hj),
    fun j hj => h.objs j (k.objsLen.trans hj), fun j hj => h.held j (k.heldLen.trans hj)⟩

theorem ArrOk.mono {L : Label} {s t : State α P} {a : Arr} {x : Bool} (h : ArrOk L s a x) (hm : s.mem.length ≤ t.mem.length)
    (hp : s.pointers.length ≤ t.pointers.length) : ArrOk L t a x :=
  ⟨lt_of_lt_of_le h.1 hm, h.2.1, fun q hq => ⟨lt_of_lt_of_le (h.2.2 q hq).1 hp, (h.2.2 q hq).2⟩⟩

theorem ObjOk.mono {L : Label} {s t : State α P} {o : Obj P} {x : Bool} (h : ObjOk L s o x) (hm : s.mem.length ≤ t.mem.length)
    (hc : s.cores.length ≤ t.cores.length) (hp : s.pointers.length ≤ t.pointers.length) : ObjOk L t o x :=
  ⟨fun c h' => ⟨lt_of_lt_of_le (h.1 c h').1 hc, (h.1 c h').2⟩, fun a ha => (h.2 a ha).mono hm hp⟩

theorem CoreOk.mono {L : Label} {s t : State α P} {k : Core P} {x : Bool} (h : CoreOk L s k x) (hm : s.mem.length ≤ t.mem.length)
    (hp : s.pointers.length ≤ t.pointers.length) : CoreOk L t k x :=
  ⟨lt_of_lt_of_le h.1 hm, h.2.1, fun q hq => ⟨lt_of_lt_of_le (h.2.2 q hq).1 hp, (h.2.2 q hq).2⟩⟩

/-- A step keeps labels apart, and keeps the things of the other label. -/
def Good (L : Label) (x : Bool) (s s' : State α P) : Prop := Cons L s' ∧ Keep L x s s'

theorem Good.trans {L : Label} {x : Bool} {s t u : State α P} (h : Good L x s t) (h' : Good L x t u) : Good L x s u := ⟨h'.1, h.2.trans h'.2⟩

theorem append_ne {β : Type} {L : Nat → Bool} {x : Bool} {l : List β} (hf : ∀ k, l.length ≤ k → L k = x) (y : β) (b : Nat) (hb : L b ≠ x) : (l ++ [y])[b]? = l[b]? := by
  have : b < l.length := by
    by_contra h
    exact hb (hf b (by omega))
  rw [List.getElem?_append_left this]

theorem set_ne {β : Type} {L : Nat → Bool} {x : Bool} {l : List β} {i : Nat} (hi : L i = x) (y : β) (b : Nat) (hb : L b ≠ x) : (l.set i y)[b]? = l[b]? := by
  have : i ≠ b := by rintro rfl; exact hb hi
  rw [List.getElem?_set_ne this]

theorem alloc_good {L : Label} {x : Bool} {s : State α P} (h : Cons L s) (hf : Fresh L x s) (rows : List α) : Good L x s (alloc s rows) := by
  have hl : s.mem.length ≤ (alloc s rows).mem.length := by simp [alloc]
  refine ⟨⟨fun i o ho => (h.obj i o ho).mono hl (le_refl _) (le_refl _), fun c k hk => (h.core c k hk).mono hl (le_refl _), ?_,
    fun j a ha => (h.held j a ha).mono hl (le_refl _), h.multi⟩, ⟨hl, le_refl _, le_refl _, le_refl _, le_refl _, fun b hb => append_ne hf.mem rows b hb,
    fun _ _ => rfl, fun _ _ => rfl, fun _ _ => rfl, [], by simp [alloc], by simp⟩⟩
  intro q p hp
  obtain ⟨h1, h2, h3, h4⟩ := h.ptr q p hp
  exact ⟨h1, h2, lt_of_lt_of_le h3 hl, h4⟩

theorem setObj_good {L : Label} {x : Bool} {s : State α P} (h : Cons L s) {i : Nat} (hi : L.obj i = x) {o : Obj P} (ho : ObjOk L s o x) : Good L x s (setObj s i o) := by
  refine ⟨⟨?_, h.core, h.ptr, h.held, h.multi⟩, ⟨le_refl _, le_refl _, le_refl _, by simp [setObj], le_refl _, fun _ _ => rfl, fun _ _ => rfl, fun b hb => set_ne hi o b hb,
    fun _ _ => rfl, [], by simp [setObj], by simp⟩⟩
  intro j o' hj
  rcases getElem?_set' hj with ⟨rfl, rfl⟩ | ⟨_, h'⟩
  · rw [hi]; exact ho
  · exact h.obj j o' h'

theorem addObj_good {L : Label} {x : Bool} {s : State α P} (h : Cons L s) (hf : Fresh L x s) {o : Obj P} (ho : ObjOk L s o x) :
    Good L x s { s with objs := s.objs ++ [o] } := by
  refine ⟨⟨?_, h.core, h.ptr, h.held, h.multi⟩, ⟨le_refl _, le_refl _, le_refl _, by simp, le_refl _, fun _ _ => rfl, fun _ _ => rfl, fun b hb => append_ne hf.objs o b hb,
    fun _ _ => rfl, [], by simp, by simp⟩⟩
  intro j o' hj
  rcases getElem?_append' hj with h' | ⟨rfl, rfl⟩
  · exact h.obj j o' h'
  · rw [hf.objs _ (le_refl _)]; exact ho

theorem addCore_good {L : Label} {x : Bool} {s : State α P} (h : Cons L s) (hf : Fresh L x s) {k : Core P} (hk : CoreOk L s k x) :
    Good L x s { s with cores := s.cores ++ [k] } := by
  have hl : s.cores.length ≤ (s.cores ++ [k]).length := by simp
  refine ⟨⟨fun i o ho => (h.obj i o ho).mono (le_refl _) hl (le_refl _), ?_, ?_, h.held, fun m hm c hc => lt_of_lt_of_le (h.multi m hm c hc) hl⟩,
    ⟨le_refl _, hl, le_refl _, le_refl _, le_refl _, fun _ _ => rfl, fun b hb => append_ne hf.cores k b hb, fun _ _ => rfl, fun _ _ => rfl, [], by simp, by simp⟩⟩
  · intro c k' hc
    rcases getElem?_append' hc with h' | ⟨rfl, rfl⟩
    · exact h.core c k' h'
    · rw [hf.cores _ (le_refl _)]; exact hk
  · intro q p hp
    obtain ⟨h1, h2, h3, h4⟩ := h.ptr q p hp
    exact ⟨lt_of_lt_of_le h1 hl, h2, h3, h4⟩

theorem setCore_good {L : Label} {x : Bool} {s : State α P} (h : Cons L s) {c : Nat} (hc : L.core c = x) {k : Core P} (hk : CoreOk L s k x) :
    Good L x s { s with cores := s.cores.set c k } := by
  have hl : s.cores.length ≤ (s.cores.set c k).length := by simp
  refine ⟨⟨fun i o ho => (h.obj i o ho).mono (le_refl _) hl (le_refl _), ?_, ?_, h.held, fun m hm c hc => lt_of_lt_of_le (h.multi m hm c hc) hl⟩,
    ⟨le_refl _, hl, le_refl _, le_refl _, le_refl _, fun _ _ => rfl, fun b hb => set_ne hc k b hb, fun _ _ => rfl, fun _ _ => rfl, [], by simp, by simp⟩⟩
  · intro c' k' hc'
    rcases getElem?_set' hc' with ⟨rfl, rfl⟩ | ⟨_, h'⟩
    · rw [hc]; exact hk
    · exact h.core c' k' h'
  · intro q p hp
    obtain ⟨h1, h2, h3, h4⟩ := h.ptr q p hp
    exact ⟨lt_of_lt_of_le h1 hl, h2, h3, h4⟩

theorem addPointers_good {L : Label} {x : Bool} {s : State α P} (h : Cons L s) (hf : Fresh L x s) {p : Pointers} (h1 : p.core < s.cores.length) (h2 : L.core p.core = x)
    (h3 : p.block < s.mem.length) (h4 : L.block p.block = x) : Good L x s { s with pointers := s.pointers ++ [p] } := by
  have hl : s.pointers.length ≤ (s.pointers ++ [p]).length := by simp
  refine ⟨⟨fun i o ho => (h.obj i o ho).mono (le_refl _) (le_refl _) hl, fun c k hk => (h.core c k hk).mono (le_refl _) hl, ?_, fun j a ha => (h.held j a ha).mono (le_refl _) hl,
    h.multi⟩, ⟨le_refl _, le_refl _, hl, le_refl _, le_refl _, fun _ _ => rfl, fun _ _ => rfl, fun _ _ => rfl, fun _ _ => rfl, [], by simp, by simp⟩⟩
  intro q p' hp
  rcases getElem?_append' hp with h' | ⟨rfl, rfl⟩
  · exact h.ptr q p' h'
  · rw [hf.pointers _ (le_refl _)]; exact ⟨h1, h2, h3, h4⟩

theorem addHeld_good {L : Label} {x : Bool} {s : State α P} (h : Cons L s) (hf : Fresh L x s) {a : Option Arr} (ha : ∀ b, a = some b → ArrOk L s b x) :
    Good L x s { s with held := s.held ++ [a] } := by
  refine ⟨⟨h.obj, h.core, h.ptr, ?_, h.multi⟩, ⟨le_refl _, le_refl _, le_refl _, le_refl _, by simp, fun _ _ => rfl, fun _ _ => rfl, fun _ _ => rfl,
    fun b hb => append_ne hf.held a b hb, [], by simp, by simp⟩⟩
  intro j b hj
  rcases getElem?_append' hj with h' | ⟨rfl, rfl⟩
  · exact h.held j b h'
  · rw [hf.held _ (le_refl _)]; exact ha b rfl

theorem release_good {L : Label} {x : Bool} {s : State α P} (h : Cons L s) {j : Nat} (hj : L.held j = x) : Good L x s { s with held := s.held.set j none } := by
  refine ⟨⟨h.obj, h.core, h.ptr, ?_, h.multi⟩, ⟨le_refl _, le_refl _, le_refl _, le_refl _, by simp, fun _ _ => rfl, fun _ _ => rfl, fun _ _ => rfl,
    fun b hb => set_ne hj none b hb, [], by simp, by simp⟩⟩
  intro i b hi
  rcases getElem?_set' hi with ⟨_, h'⟩ | ⟨_, h'⟩
  · simp at h'
  · exact h.held i b h'

theorem store_good {L : Label} {x : Bool} {s : State α P} (h : Cons L s) {b : Nat} (hb : L.block b = x) (row : Nat) (v : α) : Good L x s (store s b row v) := by
  have hl : s.mem.length = (store s b row v).mem.length := by simp [store]
  refine ⟨⟨fun i o ho => (h.obj i o ho).mono hl.le (le_refl _) (le_refl _), fun c k hk => (h.core c k hk).mono hl.le (le_refl _), ?_,
    fun j a ha => (h.held j a ha).mono hl.le (le_refl _), h.multi⟩, ⟨hl.le, le_refl _, le_refl _, le_refl _, le_refl _, ?_,
    fun _ _ => rfl, fun _ _ => rfl, fun _ _ => rfl, [], by simp [store], by simp⟩⟩
  · intro q p hp
    obtain ⟨h1, h2, h3, h4⟩ := h.ptr q p hp
    exact ⟨h1, h2, lt_of_lt_of_le h3 hl.le, h4⟩
  · intro b' hb'
    have : b ≠ b' := by rintro rfl; exact hb' hb
    simp [store, List.getElem?_modify, this]

theorem multi_good {L : Label} {x : Bool} {s : State α P} (h : Cons L s) {cs : List Nat} (hc : ∀ c ∈ cs, c < s.cores.length ∧ L.core c = x) :
    Good L x s { s with multis := s.multis ++ [cs] } := by
  refine ⟨⟨h.obj, h.core, h.ptr, h.held, ?_⟩, ⟨le_refl _, le_refl _, le_refl _, le_refl _, le_refl _, fun _ _ => rfl, fun _ _ => rfl, fun _ _ => rfl,
    fun _ _ => rfl, [cs], rfl, ?_⟩⟩
  · intro m hm c hcm
    rcases List.mem_append.1 hm with hm | hm
    · exact h.multi m hm c hcm
    · rw [List.mem_singleton] at hm; subst hm; exact (hc c hcm).1
  · intro m hm c hcm
    rw [List.mem_singleton] at hm; subst hm; exact (hc c hcm).2

theorem corePointers_good {L : Label} {x : Bool} {s : State α P} (h : Cons L s) (hf : Fresh L x s) {c : Nat} {k : Core P} (hk : s.cores[c]? = some k) (hc : L.core c = x) :
    Good L x s (corePointers s c k).1 ∧ (corePointers s c k).2 < (corePointers s c k).1.pointers.length ∧ L.ptr (corePointers s c k).2 = x := by
  have hlt : c < s.cores.length := (List.getElem?_eq_some_iff.1 hk).1
  have hko := h.core c k hk
  rw [hc] at hko
  unfold corePointers
  simp only
  split
  · rename_i q hq
    refine ⟨⟨h, Keep.refl L x s⟩, ?_⟩
    obtain ⟨q', hq', hx⟩ := Option.bind_eq_some_iff.1 hq
    obtain ⟨p, hp, hx⟩ := Option.bind_eq_some_iff.1 hx
    split at hx
    · simp only [Option.some.injEq] at hx
      subst hx
      exact hko.2.2 _ hq'
    · simp at hx
  · have g1 := addPointers_good (p := ⟨c, k.block, (s.mem[k.block]?).elim 0 List.length⟩) h hf hlt hc hko.1 hko.2.1
    have hfr := hf.pointers _ (le_refl _)
    have g2 := setCore_good (k := { k with pointers := some s.pointers.length }) g1.1 hc
      ⟨hko.1, hko.2.1, fun q hq => by simp only [Option.some.injEq] at hq; subst hq; exact ⟨by simp, hfr⟩⟩
    exact ⟨g1.trans g2, by simp, hfr⟩

theorem prepare_good {L : Label} {x : Bool} {s s' : State α P} (h : Cons L s) (hf : Fresh L x s) {i : Nat} (hi : L.obj i = x) (hs : prepare s i = some s') : Good L x s s' := by
  unfold prepare at hs
  split at hs
  · simp at hs
  · rename_i o ho
    have hok := h.obj i o ho
    rw [hi] at hok
    split at hs
    · simp only [Option.some.injEq] at hs; subst hs; exact ⟨h, Keep.refl L x s⟩
    · rename_i c hc
      have hcl := (hok.1 c hc).2
      split at hs
      · simp at hs
      · rename_i k hk
        split at hs
        · rename_i a ha
          split at hs
          · simp only [Option.some.injEq] at hs; subst hs; exact ⟨h, Keep.refl L x s⟩
          · simp only [Option.some.injEq] at hs
            subst hs
            obtain ⟨g, g1, g2⟩ := corePointers_good h hf hk hcl
            have hok' := hok.mono g.2.memLen g.2.coresLen g.2.pointersLen
            refine g.trans (setObj_good g.1 hi ⟨hok'.1, ?_⟩)
            intro b hb
            simp only [Option.some.injEq] at hb
            subst hb
            have ha' := hok'.2 a ha
            exact ⟨ha'.1, ha'.2.1, fun q hq => by simp only [Option.some.injEq] at hq; subst hq; exact ⟨g1, g2⟩⟩
        · rename_i ha
          obtain ⟨rows, _, hs⟩ := Option.map_eq_some_iff.1 hs
          subst hs
          have g0 := alloc_good h hf rows
          obtain ⟨g, g1, g2⟩ := corePointers_good (s := alloc s rows) g0.1 (hf.keep g0.2) hk hcl
          have gg := g0.trans g
          have hok' := hok.mono gg.2.memLen gg.2.coresLen gg.2.pointersLen
          refine gg.trans (setObj_good gg.1 hi ⟨hok'.1, ?_⟩)
          intro b hb
          simp only [Option.some.injEq] at hb
          subst hb
          refine ⟨lt_of_lt_of_le ?_ g.2.memLen, hf.mem _ (le_refl _), fun q hq => by simp only [Option.some.injEq] at hq; subst hq; exact ⟨g1, g2⟩⟩
          simp [alloc]

theorem newCore_good {L : Label} {x : Bool} {count : P → Nat} {views : Bool} {s : State α P} (h : Cons L s) (hf : Fresh L x s) {i : Nat} (hi : L.obj i = x) {r : Res α P}
    (hr : newCore count views s i = some r) : Good L x s r.state := by
  unfold newCore at hr
  split at hr
  · simp at hr
  · rename_i o ho
    have hok := h.obj i o ho
    rw [hi] at hok
    split at hr
    · rename_i a p ha hp
      have hao := hok.2 a ha
      split at hr
      · simp at hr
      · rename_i rows hrows
        have g1 : Good L x s (setObj s i { o with saved := some ⟨a.block, none⟩ }) := setObj_good h hi
          ⟨hok.1, fun b hb => by simp only [Option.some.injEq] at hb; subst hb; exact ⟨hao.1, hao.2.1, by simp⟩⟩
        have hf1 := hf.keep g1.2
        split at hr
        · simp only [Option.some.injEq] at hr; subst hr; exact g1
        · split at hr
          · simp only [Option.some.injEq] at hr
            subst hr
            have g2 := addCore_good (k := ⟨a.block, false, p, none⟩) g1.1 hf1 ⟨hao.1, hao.2.1, by simp⟩
            refine (g1.trans g2).trans (setObj_good g2.1 hi ⟨?_, ?_⟩)
            · intro c hc
              simp only [Option.some.injEq] at hc
              subst hc
              exact ⟨by simp, hf1.cores _ (le_refl _)⟩
            · intro b hb
              simp only [Option.some.injEq] at hb
              subst hb
              exact ⟨hao.1, hao.2.1, by simp⟩
          · simp only [Option.some.injEq] at hr
            subst hr
            have g2 := alloc_good g1.1 hf1 rows
            have hf2 := hf1.keep g2.2
            have g3 := addCore_good (k := ⟨(setObj s i { o with saved := some ⟨a.block, none⟩ }).mem.length, true, p, none⟩) g2.1 hf2
              ⟨by simp [alloc], hf1.mem _ (le_refl _), by simp⟩
            refine ((g1.trans g2).trans g3).trans (setObj_good g3.1 hi ⟨?_, ?_⟩)
            · intro c hc
              simp only [Option.some.injEq] at hc
              subst hc
              exact ⟨by simp, hf2.cores _ (le_refl _)⟩
            · intro b hb
              simp only [Option.some.injEq] at hb
              subst hb
              exact ⟨lt_of_lt_of_le hao.1 ((g2.trans g3).2.memLen), hao.2.1, by simp⟩
    · simp only [Option.some.injEq] at hr; subst hr; exact ⟨h, Keep.refl L x s⟩

theorem construct_good {L : Label} {x : Bool} {count : P → Nat} {views : Bool} {s : State α P} (h : Cons L s) (hf : Fresh L x s) {p : P} {rows : List α} {r : Res α P}
    (hr : construct count views s p rows = some r) : Good L x s r.state := by
  unfold construct at hr
  simp only at hr
  obtain ⟨r', hr', hx⟩ := Option.map_eq_some_iff.1 hr
  have g1 := alloc_good h hf rows
  have hf1 := hf.keep g1.2
  have g2 := addObj_good (o := ⟨none, some ⟨s.mem.length, none⟩, some p⟩) g1.1 hf1
    ⟨by simp, fun b hb => by simp only [Option.some.injEq] at hb; subst hb; exact ⟨by simp [alloc], hf.mem _ (le_refl _), by simp⟩⟩
  have g3 := newCore_good g2.1 (hf1.keep g2.2) (hf.objs _ (le_refl _)) hr'
  split at hx
  · subst hx; exact g1
  · subst hx; exact (g1.trans g2).trans g3

/-- The call names only things of label `x`. -/
def Names (L : Label) (x : Bool) : Op α P → Prop
  | .new _ _ | .copy _ | .evaluate _ | .evaluateMulti _ => True
  | .setProps i _ | .setCps i _ | .clear i | .read i | .modify i _ | .share i => L.obj i = x
  | .release j | .write j _ _ => L.held j = x
  | .multi is => ∀ i ∈ is, L.obj i = x

theorem step_good {L : Label} {x : Bool} {count : P → Nat} {views : Bool} {s : State α P} (h : Cons L s) (hf : Fresh L x s) {op : Op α P} (hn : Names L x op) {r : Res α P}
    (hr : step count views s op = some r) : Good L x s r.state := by
  have same : Good L x s s := ⟨h, Keep.refl L x s⟩
  cases op with
  | new p rows => exact construct_good h hf hr
  | setProps i p =>
    obtain ⟨o, ho, hr⟩ := Option.bind_eq_some_iff.1 hr
    obtain ⟨s1, hs1, hr⟩ := Option.bind_eq_some_iff.1 hr
    have hi : L.obj i = x := hn
    have hok := h.obj i o ho
    rw [hi] at hok
    have g1 := setObj_good (o := { o with props := some p }) h hi ⟨hok.1, hok.2⟩
    have g2 := prepare_good g1.1 (hf.keep g1.2) hi hs1
    have g := g1.trans g2
    exact g.trans (newCore_good g.1 (hf.keep g.2) hi hr)
  | setCps i rows =>
    obtain ⟨o, ho, hr⟩ := Option.bind_eq_some_iff.1 hr
    have hi : L.obj i = x := hn
    have hok := h.obj i o ho
    rw [hi] at hok
    have g1 := alloc_good h hf rows
    have g2 := setObj_good (o := { o with saved := some ⟨s.mem.length, none⟩ }) g1.1 hi
      ⟨(hok.mono g1.2.memLen g1.2.coresLen g1.2.pointersLen).1, fun b hb => by
        simp only [Option.some.injEq] at hb; subst hb; exact ⟨by simp [alloc], hf.mem _ (le_refl _), by simp⟩⟩
    have g := g1.trans g2
    exact g.trans (newCore_good g.1 (hf.keep g.2) hi hr)
  | clear i =>
    obtain ⟨o, ho, hr⟩ := Option.map_eq_some_iff.1 hr
    subst hr
    exact setObj_good h hn ⟨by simp, by simp⟩
  | read i =>
    obtain ⟨s1, hs1, hr⟩ := Option.bind_eq_some_iff.1 hr
    obtain ⟨o, ho, hr⟩ := Option.map_eq_some_iff.1 hr
    subst hr
    have hi : L.obj i = x := hn
    have g1 := prepare_good h hf hi hs1
    have hok := g1.1.obj i o ho
    rw [hi] at hok
    exact g1.trans (addHeld_good g1.1 (hf.keep g1.2) fun b hb => hok.2 b hb)
  | release j =>
    simp only [step, Option.some.injEq] at hr
    subst hr
    exact release_good h hn
  | write j row v =>
    obtain ⟨a, ha, hr⟩ := Option.bind_eq_some_iff.1 hr
    obtain ⟨rows, hrows, hr⟩ := Option.bind_eq_some_iff.1 hr
    have ha' : s.held[j]? = some (some a) := by
      obtain ⟨a', h1, h2⟩ := Option.bind_eq_some_iff.1 ha
      simp only [id] at h2
      rw [h1, h2]
    have hao := h.held j a ha'
    have hj : L.held j = x := hn
    rw [hj] at hao
    split at hr
    · simp only [Option.some.injEq] at hr; subst hr; exact same
    · have g1 := store_good h hao.2.1 row v
      simp only at hr
      split at hr
      · simp only [Option.some.injEq] at hr; subst hr; exact g1
      · rename_i q p hqp
        obtain ⟨q', hq', hp'⟩ := Option.bind_eq_some_iff.1 hqp
        obtain ⟨p', hp2, he⟩ := Option.map_eq_some_iff.1 hp'
        simp only [Prod.mk.injEq] at he
        obtain ⟨rfl, rfl⟩ := he
        split at hr
        · simp only [Option.some.injEq] at hr; subst hr; exact g1
        · split at hr
          · simp only [Option.some.injEq] at hr
            subst hr
            refine g1.trans (store_good g1.1 ?_ row v)
            rw [(h.ptr q' p' hp2).2.2.2, (hao.2.2 q' hq').2]
          · simp at hr
  | modify i result =>
    obtain ⟨o, ho, hr⟩ := Option.bind_eq_some_iff.1 hr
    have hi : L.obj i = x := hn
    have hok := h.obj i o ho
    rw [hi] at hok
    cases hc : o.core with
    | none => simp only [hc, Option.some.injEq] at hr; subst hr; exact same
    | some c =>
      simp only [hc] at hr
      obtain ⟨k, hk, hr⟩ := Option.bind_eq_some_iff.1 hr
      have hko := h.core c k hk
      rw [(hok.1 c hc).2] at hko
      cases result with
      | none =>
        simp only [Option.some.injEq] at hr
        subst hr
        exact setObj_good h hi ⟨fun c' hc' => hok.1 c' (hc.trans hc'), by simp⟩
      | some pr =>
        obtain ⟨p, rows⟩ := pr
        simp only at hr
        obtain ⟨_, _, hr⟩ := Option.map_eq_some_iff.1 hr
        subst hr
        have g1 := alloc_good h hf rows
        have g2 := setCore_good (c := c) (k := ⟨s.mem.length, true, p, k.pointers⟩) g1.1 (hok.1 c hc).2
          ⟨by simp [alloc], hf.mem _ (le_refl _), hko.2.2⟩
        have g := g1.trans g2
        exact g.trans (setObj_good g.1 hi ⟨fun c' hc' =>
          have h' := hok.1 c' (hc.trans hc')
          ⟨lt_of_lt_of_le h'.1 g.2.coresLen, h'.2⟩, by simp⟩)
  | share i =>
    obtain ⟨o, ho, hr⟩ := Option.map_eq_some_iff.1 hr
    subst hr
    have hi : L.obj i = x := hn
    have hok := h.obj i o ho
    rw [hi] at hok
    exact addObj_good h hf hok
  | copy i =>
    obtain ⟨o, ho, hr⟩ := Option.bind_eq_some_iff.1 hr
    split at hr
    · simp only [Option.some.injEq] at hr; subst hr; exact same
    · obtain ⟨k, hk, hr⟩ := Option.bind_eq_some_iff.1 hr
      obtain ⟨rows, hrows, hr⟩ := Option.bind_eq_some_iff.1 hr
      exact construct_good h hf hr
  | multi is =>
    simp only [step] at hr
    split at hr
    · simp only [Option.some.injEq] at hr; subst hr; exact same
    · rename_i cs hcs
      simp only [Option.some.injEq] at hr
      subst hr
      refine multi_good h fun c hc => ?_
      have key : ∀ (is cs : List Nat), is.mapM (fun i => (s.objs[i]?).bind Obj.core) = some cs → ∀ c ∈ cs, ∃ i ∈ is, ∃ o : Obj P, s.objs[i]? = some o ∧ o.core = some c := by
        intro is
        induction is with
        | nil => intro cs h c hc; simp at h; subst h; simp at hc
        | cons i is ih =>
          intro cs h c hc
          rw [List.mapM_cons] at h
          obtain ⟨c', h1, h⟩ := Option.bind_eq_some_iff.1 h
          obtain ⟨cs', h2, h⟩ := Option.bind_eq_some_iff.1 h
          simp only [Option.pure_def, Option.some.injEq] at h
          subst h
          rcases List.mem_cons.1 hc with rfl | hc
          · obtain ⟨o, ho, hoc⟩ := Option.bind_eq_some_iff.1 h1
            exact ⟨i, List.mem_cons_self, o, ho, hoc⟩
          · obtain ⟨j, hj, o, ho⟩ := ih cs' h2 c hc
            exact ⟨j, List.mem_cons_of_mem _ hj, o, ho⟩
      obtain ⟨i, hi, o, ho, hoc⟩ := key is cs hcs c hc
      have := (h.obj i o ho).1 c hoc
      rw [hn i hi] at this
      exact this
  | evaluate i =>
    obtain ⟨o, ho, hr⟩ := Option.bind_eq_some_iff.1 hr
    split at hr
    · simp only [Option.some.injEq] at hr; subst hr; exact same
    · obtain ⟨_, _, hr⟩ := Option.map_eq_some_iff.1 hr
      subst hr; exact same
  | evaluateMulti m =>
    obtain ⟨cs, _, hr⟩ := Option.bind_eq_some_iff.1 hr
    obtain ⟨_, _, hr⟩ := Option.map_eq_some_iff.1 hr
    subst hr; exact same

/-! ### What is evaluated -/

theorem referenced_keep {L : Label} {x : Bool} {s s' : State α P} (h : Cons L s) (h' : Cons L s') (k : Keep L x s s') {c : Nat} (hc : L.core c ≠ x) :
    s'.referenced c = s.referenced c := by
  rw [Bool.eq_iff_iff, referenced_iff, referenced_iff]
  obtain ⟨l, hl, hl'⟩ := k.multi
  constructor
  · rintro (⟨i, o, ho, hoc⟩ | ⟨m, hm, hcm⟩)
    · left
      have := ((h'.obj i o ho).1 c hoc).2
      exact ⟨i, o, (k.obj i (this ▸ hc)) ▸ ho, hoc⟩
    · right
      rw [hl] at hm
      rcases List.mem_append.1 hm with hm | hm
      · exact ⟨m, hm, hcm⟩
      · exact absurd (hl' m hm c hcm) hc
  · rintro (⟨i, o, ho, hoc⟩ | ⟨m, hm, hcm⟩)
    · left
      have := ((h.obj i o ho).1 c hoc).2
      exact ⟨i, o, (k.obj i (this ▸ hc)).symm ▸ ho, hoc⟩
    · right
      exact ⟨m, by rw [hl]; exact List.mem_append_left _ hm, hcm⟩

/-- When a block is in use. -/
theorem alive_iff (s : State α P) (b : Nat) : s.alive b = true ↔ (∃ c k, s.referenced c = true ∧ s.cores[c]? = some k ∧ k.owned = true ∧ k.block = b) ∨
    (∃ (i : Nat) (o : Obj P) (a : Arr), s.objs[i]? = some o ∧ o.saved = some a ∧ a.block = b) ∨ ∃ (h : Nat) (a : Arr), s.held[h]? = some (some a) ∧ a.block = b := by
  unfold State.alive
  simp only [Bool.or_eq_true, List.any_eq_true, List.mem_range, Bool.and_eq_true, Option.any_eq_true, beq_iff_eq, or_assoc]
  constructor
  · rintro (⟨c, hc, hr, k, hk, ho, hb⟩ | ⟨o, ho, a, ha, hb⟩ | ⟨a, ha, b', hb', hb⟩)
    · exact .inl ⟨c, k, hr, hk, ho, hb⟩
    · obtain ⟨i, hi⟩ := List.mem_iff_getElem?.1 ho
      exact .inr (.inl ⟨i, o, a, hi, ha, hb⟩)
    · obtain ⟨i, hi⟩ := List.mem_iff_getElem?.1 ha
      subst hb'
      exact .inr (.inr ⟨i, b', hi, hb⟩)
  · rintro (⟨c, k, hr, hk, ho, hb⟩ | ⟨i, o, a, hi, ha, hb⟩ | ⟨i, a, hi, hb⟩)
    · exact .inl ⟨c, (List.getElem?_eq_some_iff.1 hk).1, hr, k, hk, ho, hb⟩
    · exact .inr (.inl ⟨o, List.mem_iff_getElem?.2 ⟨i, hi⟩, a, ha, hb⟩)
    · exact .inr (.inr ⟨some a, List.mem_iff_getElem?.2 ⟨i, hi⟩, a, rfl, hb⟩)

theorem alive_keep {L : Label} {x : Bool} {s s' : State α P} (h : Cons L s) (h' : Cons L s') (k : Keep L x s s') {b : Nat} (hb : L.block b ≠ x) : s'.alive b = s.alive b := by
  rw [Bool.eq_iff_iff, alive_iff, alive_iff]
  constructor
  · rintro (⟨c, kk, hr, hk, ho, rfl⟩ | ⟨i, o, a, hi, ha, rfl⟩ | ⟨i, a, hi, rfl⟩)
    · have hc : L.core c ≠ x := (h'.core c kk hk).2.1 ▸ hb
      exact .inl ⟨c, kk, (referenced_keep h h' k hc) ▸ hr, (k.core c hc) ▸ hk, ho, rfl⟩
    · have hc : L.obj i ≠ x := ((h'.obj i o hi).2 a ha).2.1 ▸ hb
      exact .inr (.inl ⟨i, o, a, (k.obj i hc) ▸ hi, ha, rfl⟩)
    · have hc : L.held i ≠ x := (h'.held i a hi).2.1 ▸ hb
      exact .inr (.inr ⟨i, a, (k.held i hc) ▸ hi, rfl⟩)
  · rintro (⟨c, kk, hr, hk, ho, rfl⟩ | ⟨i, o, a, hi, ha, rfl⟩ | ⟨i, a, hi, rfl⟩)
    · have hc : L.core c ≠ x := (h.core c kk hk).2.1 ▸ hb
      exact .inl ⟨c, kk, (referenced_keep h h' k hc).symm ▸ hr, (k.core c hc).symm ▸ hk, ho, rfl⟩
    · have hc : L.obj i ≠ x := ((h.obj i o hi).2 a ha).2.1 ▸ hb
      exact .inr (.inl ⟨i, o, a, (k.obj i hc).symm ▸ hi, ha, rfl⟩)
    · have hc : L.held i ≠ x := (h.held i a hi).2.1 ▸ hb
      exact .inr (.inr ⟨i, a, (k.held i hc).symm ▸ hi, rfl⟩)

/-- Splines of the other label are evaluated with the same control points. -/
theorem evaluated_keep {L : Label} {x : Bool} {s s' : State α P} (h : Cons L s) (h' : Cons L s') (k : Keep L x s s') {i : Nat} (hi : L.obj i ≠ x) :
    evaluated s' i = evaluated s i := by
  unfold evaluated
  rw [k.obj i hi]
  cases ho : s.objs[i]? with
  | none => rfl
  | some o =>
    cases hc : o.core with
    | none => simp [hc]
    | some c =>
      have hcl : L.core c ≠ x := ((h.obj i o ho).1 c hc).2 ▸ hi
      simp only [Option.bind_some, hc, State.loadCore]
      rw [k.core c hcl]
      cases hk : s.cores[c]? with
      | none => rfl
      | some kk =>
        have hb : L.block kk.block ≠ x := (h.core c kk hk).2.1 ▸ hcl
        simp only [Option.bind_some, State.load]
        rw [alive_keep h h' k hb, k.mem _ hb]

/-- Arrays of the other label show the same rows. -/
theorem shown_keep {L : Label} {x : Bool} {s s' : State α P} (h : Cons L s) (k : Keep L x s s') {j : Nat} (hj : L.held j ≠ x) :
    shown s' j = shown s j := by
  unfold shown
  rw [k.held j hj]
  cases ha : s.held[j]? with
  | none => rfl
  | some a =>
    cases a with
    | none => rfl
    | some a =>
      have hb : L.block a.block ≠ x := (h.held j a ha).2.1 ▸ hj
      simp only [Option.bind_some, id]
      rw [k.mem _ hb]

/-- Splines of the other label have the same properties. -/
theorem properties_keep {L : Label} {x : Bool} {s s' : State α P} (h : Cons L s) (k : Keep L x s s') {i : Nat} (hi : L.obj i ≠ x) :
    propertiesOf s' i = propertiesOf s i := by
  unfold propertiesOf
  rw [k.obj i hi]
  cases ho : s.objs[i]? with
  | none => rfl
  | some o =>
    cases hc : o.core with
    | none => simp [hc]
    | some c =>
      have hcl : L.core c ≠ x := ((h.obj i o ho).1 c hc).2 ▸ hi
      simp only [Option.bind_some, hc]
      rw [k.core c hcl]

/-- The labels of things that do not exist yet do not matter. -/
theorem Cons.relabel {L L' : Label} {s : State α P} (h : Cons L s) (hb : ∀ b < s.mem.length, L'.block b = L.block b) (hc : ∀ c < s.cores.length, L'.core c = L.core c)
    (hp : ∀ q < s.pointers.length, L'.ptr q = L.ptr q) (ho : ∀ i < s.objs.length, L'.obj i = L.obj i) (hh : ∀ j < s.held.length, L'.held j = L.held j) : Cons L' s := by
  have arr : ∀ {a : Arr} {x : Bool}, ArrOk L s a x → ArrOk L' s a x := fun ha =>
    ⟨ha.1, (hb _ ha.1).trans ha.2.1, fun q hq => ⟨(ha.2.2 q hq).1, (hp _ (ha.2.2 q hq).1).trans (ha.2.2 q hq).2⟩⟩
  refine ⟨fun i o hi => ?_, fun c k hk => ?_, fun q p hq => ?_, fun j a hj => ?_, h.multi⟩
  · rw [ho i (List.getElem?_eq_some_iff.1 hi).1]
    have := h.obj i o hi
    exact ⟨fun c hcc => ⟨(this.1 c hcc).1, (hc _ (this.1 c hcc).1).trans (this.1 c hcc).2⟩, fun a ha => arr (this.2 a ha)⟩
  · rw [hc c (List.getElem?_eq_some_iff.1 hk).1]
    have := h.core c k hk
    exact ⟨this.1, (hb _ this.1).trans this.2.1, fun q hq => ⟨(this.2.2 q hq).1, (hp _ (this.2.2 q hq).1).trans (this.2.2 q hq).2⟩⟩
  · rw [hp q (List.getElem?_eq_some_iff.1 hq).1]
    have := h.ptr q p hq
    exact ⟨this.1, (hc _ this.1).trans this.2.1, this.2.2.1, (hb _ this.2.2.1).trans this.2.2.2⟩
  · rw [hh j (List.getElem?_eq_some_iff.1 hj).1]
    exact arr (h.held j a hj)

/-- The labels with everything new on side `x`. -/
def Label.grow (L : Label) (s : State α P) (x : Bool) : Label :=
  ⟨Spec.grow L.obj s.objs.length x, Spec.grow L.block s.mem.length x, Spec.grow L.core s.cores.length x, Spec.grow L.ptr s.pointers.length x, Spec.grow L.held s.held.length x⟩

theorem grow_lt {f : Nat → Bool} {n k : Nat} {x : Bool} (h : k < n) : Spec.grow f n x k = f k := by simp [Spec.grow, h]

theorem grow_ge {f : Nat → Bool} {n k : Nat} {x : Bool} (h : n ≤ k) : Spec.grow f n x k = x := by simp [Spec.grow, Nat.not_lt.2 h]

theorem grow_const (n : Nat) (x : Bool) : Spec.grow (fun _ => x) n x = fun _ => x := by
  funext k
  simp [Spec.grow]

theorem Cons.grow {L : Label} {s : State α P} (h : Cons L s) (x : Bool) : Cons (L.grow s x) s ∧ Fresh (L.grow s x) x s :=
  ⟨h.relabel (fun _ => grow_lt) (fun _ => grow_lt) (fun _ => grow_lt) (fun _ => grow_lt) (fun _ => grow_lt),
    fun _ => grow_ge, fun _ => grow_ge, fun _ => grow_ge, fun _ => grow_ge, fun _ => grow_ge⟩

/-- Naming something that does not exist yet: the call is undefined, or has no effect, whatever label it has. Names that exist keep their label. -/
theorem step_grow {L : Label} {x : Bool} {count : P → Nat} {views : Bool} {s : State α P} (h : Cons L s) {op : Op α P} (hn : Spec.Named L.obj L.held x op) {r : Res α P}
    (hr : step count views s op = some r) : Good (L.grow s x) x s r.state := by
  obtain ⟨h', hf⟩ := h.grow x
  refine step_good h' hf ?_ hr
  have ho : ∀ i, L.obj i = x → (L.grow s x).obj i = x := by
    intro i hi
    rcases Nat.lt_or_ge i s.objs.length with hl | hl
    · exact (grow_lt hl).trans hi
    · exact grow_ge hl
  have hh : ∀ i, L.held i = x → (L.grow s x).held i = x := by
    intro i hi
    rcases Nat.lt_or_ge i s.held.length with hl | hl
    · exact (grow_lt hl).trans hi
    · exact grow_ge hl
  cases op <;> first | exact trivial | exact ho _ hn | exact hh _ hn | exact fun i hi => ho _ (hn i hi)

/-- If nothing refers to a thing of the other side, no history whose calls stay on their sides disturbs the other side. -/
theorem apart_undisturbed {count : P → Nat} {views : Bool} : ∀ (ops : List (Bool × Op α P)) (L : Label) (s : State α P), Cons L s → Spec.Apart count views L.obj L.held s ops →
    Spec.Undisturbed count views L.obj L.held s ops
  | [], _, _, _, _ => trivial
  | (x, op) :: ops, L, s, h, ha => by
    intro r hr
    have g := step_grow h ha.1 hr
    have h' := (h.grow x).1
    refine ⟨fun k hk hx => ?_, fun j hj hx => ?_, apart_undisturbed ops (L.grow s x) r.state g.1 (ha.2 r hr)⟩
    · have : (L.grow s x).obj k ≠ x := by
        rw [show (L.grow s x).obj k = L.obj k from grow_lt hk]; exact hx
      exact ⟨evaluated_keep h' g.1 g.2 this, properties_keep h' g.2 this⟩
    · have : (L.grow s x).held j ≠ x := by
        rw [show (L.grow s x).held j = L.held j from grow_lt hj]; exact hx
      exact shown_keep h' g.2 this

/-- After any history, references point to existing things. -/
theorem run_cons {count : P → Nat} {views : Bool} : ∀ {ops : List (Op α P)} {s s' : State α P} {L : Label}, (L = ⟨fun _ => false, fun _ => false, fun _ => false, fun _ => false, fun _ => false⟩) →
    Cons L s → run count views s ops = some s' → Cons L s'
  | [], s, s', L, _, h, hr => by
    simp only [run, List.foldlM_nil, Option.pure_def, Option.some.injEq] at hr
    subst hr
    exact h
  | op :: ops, s, s', L, hL, h, hr => by
    simp only [run, List.foldlM_cons] at hr
    obtain ⟨s1, h1, hr⟩ := Option.bind_eq_some_iff.1 hr
    obtain ⟨r, h2, rfl⟩ := Option.map_eq_some_iff.1 h1
    have hn : Spec.Named L.obj L.held false op := by
      subst hL
      cases op <;> first | exact trivial | exact rfl | exact fun _ _ => rfl
    have hg : L.grow s false = L := by subst hL; simp [Label.grow, grow_const]
    have g := step_grow h hn h2
    rw [hg] at g
    exact run_cons hL g.1 hr

theorem cons_empty (L : Label) : Cons L ({} : State α P) := ⟨by simp, by simp, by simp, by simp, by simp⟩

theorem evaluated_of {s : State α P} {i c : Nat} {o : Obj P} {k : Core P} {rows : List α} (ho : s.objs[i]? = some o) (hc : o.core = some c) (hk : s.cores[c]? = some k)
    (hl : s.alive k.block = true) (hm : s.mem[k.block]? = some rows) : evaluated s i = some rows := by
  simp [evaluated, ho, hc, State.loadCore, hk, State.load, hl, hm]

/-- What a constructor makes: one spline object more, with these control points and properties, and no array of the user. -/
theorem construct_spec {count : P → Nat} {views : Bool} {s : State α P} {p : P} {rows : List α} {r : Res α P} (hr : construct count views s p rows = some r) (hn : r.raised = false) :
    r.state.objs.length = s.objs.length + 1 ∧ r.state.held = s.held ∧ evaluated r.state s.objs.length = some rows ∧ propertiesOf r.state s.objs.length = some p := by
  unfold construct at hr
  simp only at hr
  obtain ⟨r', hr', hx⟩ := Option.map_eq_some_iff.1 hr
  split at hx
  · subst hx; simp at hn
  · subst hx
    unfold newCore at hr'
    simp only [alloc, List.getElem?_append_right (le_refl _), Nat.sub_self, List.getElem?_cons_zero, Option.some_or] at hr'
    split at hr'
    · simp only [Option.some.injEq] at hr'
      subst hr'
      simp at hn
    · split at hr'
      · simp only [Option.some.injEq] at hr'
        subst hr'
        refine ⟨by simp [setObj], rfl, ?_, by simp [propertiesOf, setObj]⟩
        refine evaluated_of (o := ⟨some s.cores.length, some ⟨s.mem.length, none⟩, some p⟩) (c := s.cores.length) (k := ⟨s.mem.length, false, p, none⟩) (by simp [setObj]) rfl (by simp [setObj]) ?_ (by simp [setObj])
        exact alive_saved (i := s.objs.length) (o := ⟨some s.cores.length, some ⟨s.mem.length, none⟩, some p⟩) (a := ⟨s.mem.length, none⟩) (by simp [setObj]) rfl
      · simp only [Option.some.injEq] at hr'
        subst hr'
        refine ⟨by simp [setObj], rfl, ?_, by simp [propertiesOf, setObj]⟩
        refine evaluated_of (o := ⟨some s.cores.length, some ⟨s.mem.length, none⟩, some p⟩) (c := s.cores.length) (k := ⟨(s.mem ++ [rows]).length, true, p, none⟩) (by simp [setObj]) rfl (by simp [setObj]) ?_ (by simp [setObj])
        refine alive_owned (c := s.cores.length) ?_ (by simp [setObj]) rfl
        exact referenced_iff.2 (.inl ⟨s.objs.length, ⟨some s.cores.length, some ⟨s.mem.length, none⟩, some p⟩, by simp [setObj], rfl⟩)

/-! ### C128 -/

/-- C128: a copy starts with the control points and properties of the spline, and from then on neither side sees what is done to the other: whatever happened before, in every later history of
calls of which each names only the copy's side (`true`) or only the side of everything that existed before (`false`), no call changes control points or properties of a spline, or rows of an
array, of the other side. -/
theorem copy_independent (count : P → Nat) (views : Bool) (before : List (Op α P)) (s : State α P) (hs : run count views {} before = some s) (i : Nat) (r : Res α P)
    (hr : step count views s (.copy i) = some r) (hok : r.raised = false) :
    evaluated r.state s.objs.length = evaluated s i ∧ propertiesOf r.state s.objs.length = propertiesOf s i ∧
    (∀ k < s.objs.length, evaluated r.state k = evaluated s k ∧ propertiesOf r.state k = propertiesOf s k) ∧ (∀ j < s.held.length, shown r.state j = shown s j) ∧
    ∀ later : List (Bool × Op α P), Spec.Apart count views (fun k => k == s.objs.length) (fun _ => false) r.state later →
      Spec.Undisturbed count views (fun k => k == s.objs.length) (fun _ => false) r.state later := by
  have hc := run_cons rfl (cons_empty _) hs
  have g := step_grow (x := true) (op := .copy i) hc trivial hr
  have hg := (hc.grow true).1
  obtain ⟨o, ho, hr⟩ := Option.bind_eq_some_iff.1 hr
  cases hoc : o.core with
  | none =>
    simp only [hoc, Option.some.injEq] at hr
    subst hr
    simp at hok
  | some c =>
    simp only [hoc] at hr
    obtain ⟨k, hk, hr⟩ := Option.bind_eq_some_iff.1 hr
    obtain ⟨rows, hrows, hr⟩ := Option.bind_eq_some_iff.1 hr
    obtain ⟨hlen, hheld, hev, hpr⟩ := construct_spec hr hok
    refine ⟨hev.trans (by simp [evaluated, ho, hoc, hrows]), hpr.trans (by simp [propertiesOf, ho, hoc, hk]), fun j hj => ?_, fun j hj => ?_, fun later hap => ?_⟩
    · have : (Label.grow ⟨fun _ => false, fun _ => false, fun _ => false, fun _ => false, fun _ => false⟩ s true).obj j ≠ true := by simp [Label.grow, grow_lt hj]
      exact ⟨evaluated_keep hg g.1 g.2 this, properties_keep hg g.2 this⟩
    · have : (Label.grow ⟨fun _ => false, fun _ => false, fun _ => false, fun _ => false, fun _ => false⟩ s true).held j ≠ true := by simp [Label.grow, grow_lt hj]
      exact shown_keep hg g.2 this
    · refine apart_undisturbed later ⟨fun k => k == s.objs.length, (Label.grow ⟨fun _ => false, fun _ => false, fun _ => false, fun _ => false, fun _ => false⟩ s true).block,
        (Label.grow ⟨fun _ => false, fun _ => false, fun _ => false, fun _ => false, fun _ => false⟩ s true).core,
        (Label.grow ⟨fun _ => false, fun _ => false, fun _ => false, fun _ => false, fun _ => false⟩ s true).ptr, fun _ => false⟩ r.state
        (g.1.relabel (fun _ _ => rfl) (fun _ _ => rfl) (fun _ _ => rfl) ?_ ?_) hap
      · intro j hj
        rw [hlen] at hj
        simp only [Label.grow, Spec.grow]
        split
        · simp; omega
        · simp; omega
      · intro j hj
        rw [hheld] at hj
        simp [Label.grow, grow_lt hj]

/-- A concrete case: the spline has been read before; afterwards both sides are read, written, refined and copied again, in turn. -/
example : ∃ (s : State Nat Nat) (r : Res Nat Nat) (s' : State Nat Nat), run id true {} [.new 2 [0, 1], .read 0] = some s ∧ step id true s (.copy 0) = some r ∧ r.raised = false ∧
    Spec.Apart id true (fun k => k == s.objs.length) (fun _ => false) r.state
      [(true, .read 1), (true, .write 1 0 7), (false, .write 0 1 8), (false, .modify 0 (some (3, [0, 8, 9]))), (true, .copy 0), (true, .setCps 2 [5, 6, 7])] ∧
    run id true r.state [.read 1, .write 1 0 7, .write 0 1 8, .modify 0 (some (3, [0, 8, 9])), .copy 0, .setCps 2 [5, 6, 7]] = some s' ∧
    evaluated s' 0 = some [0, 8, 9] ∧ evaluated s' 1 = some [7, 1] ∧ evaluated s' 2 = some [5, 6, 7] := by
  refine ⟨_, _, _, rfl, rfl, rfl, ?_, rfl, rfl, rfl, rfl⟩
  refine ⟨rfl, ?_⟩; rintro r hr; cases hr
  refine ⟨rfl, ?_⟩; rintro r hr; cases hr
  refine ⟨rfl, ?_⟩; rintro r hr; cases hr
  refine ⟨rfl, ?_⟩; rintro r hr; cases hr
  refine ⟨trivial, ?_⟩; rintro r hr; cases hr
  refine ⟨rfl, ?_⟩; rintro r hr; cases hr
  trivial

/-- C128: a spline made from another with `type(spline)(spline=spline)` is not independent: writing to its control points, or refining it, changes the other. For all control points, properties,
rows and values. -/
theorem share_violates (count : P → Nat) (views : Bool) (p : P) (rows : List α) (hn : rows.length = count p) (row : Nat) (hrow : row < rows.length) (v : α) (p' : P) (rows' : List α) :
    (∃ s, run count views {} [.new p rows, .share 0, .read 1, .write 0 row v] = some s ∧ evaluated s 0 = some (rows.set row v)) ∧
    ∃ s, run count views {} [.new p rows, .share 0, .modify 1 (some (p', rows'))] = some s ∧ evaluated s 0 = some rows' ∧ propertiesOf s 0 = some p' := by
  have hr : ¬ count p ≤ row := by omega
  cases views
  · constructor
    · refine ⟨_, by simp [run, step, construct, newCore, alloc, setObj, hn, prepare, corePointers, store, hr, State.referenced, State.alive, Option.any]; rfl, ?_⟩
      simp [evaluated, State.loadCore, State.load, State.alive, State.referenced]
    · refine ⟨_, by simp [run, step, construct, newCore, alloc, setObj, hn, State.loadCore, State.load, State.alive, State.referenced]; rfl, ?_⟩
      simp [evaluated, propertiesOf, State.loadCore, State.load, State.alive, State.referenced]
  · constructor
    · refine ⟨_, by simp [run, step, construct, newCore, alloc, setObj, hn, prepare, corePointers, store, hr, State.referenced, State.alive, Option.any]; rfl, ?_⟩
      simp [evaluated, State.loadCore, State.load, State.alive, State.referenced]
    · refine ⟨_, by simp [run, step, construct, newCore, alloc, setObj, hn, State.loadCore, State.load, State.alive, State.referenced]; rfl, ?_⟩
      simp [evaluated, propertiesOf, State.loadCore, State.load, State.alive, State.referenced]

/-- `spline.extract.beziers()` for a spline without knot vectors: the spline itself. (splinepy/helpme/extract.py 703-720) -/
def beziersOfBezier (i : Nat) : List Nat := [i]

/-- C128: the patches of `extract.beziers()` are not independent of a Bezier spline: writing to the control points of the patch changes the spline. -/
theorem beziers_violates (count : P → Nat) (p : P) (rows : List α) (hn : rows.length = count p) (row : Nat) (hrow : row < rows.length) (v : α) :
    ∀ patch ∈ beziersOfBezier 0, ∃ s, run count false {} [.new p rows, .read patch, .write 0 row v] = some s ∧ evaluated s 0 = some (rows.set row v) := by
  have hr : ¬ count p ≤ row := by omega
  intro patch hp
  obtain rfl : patch = 0 := by simpa [beziersOfBezier] using hp
  refine ⟨_, by simp [run, step, construct, newCore, alloc, setObj, hn, prepare, corePointers, store, hr, State.referenced, State.alive, Option.any]; rfl, ?_⟩
  simp [evaluated, State.loadCore, State.load, State.alive, State.referenced]

end Splinepy.Copies
