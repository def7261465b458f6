import Verif.Props.Lifetime

/-!
C118: assigning to an array of control points changes the spline it was read from, and nothing else.
-/
namespace Splinepy.Lifetime

variable {α P : Type}

/-! ### specification -/

/-- The user has no array of the control points of object `i`. -/
def Spec.NoArrays (s : State α P) (i : Nat) : Prop :=
  ∀ (o : Obj P) (a : Arr), s.objs[i]? = some o → o.saved = some a → ∀ (j : Nat) (a' : Arr), s.held[j]? = some (some a') → a'.block ≠ a.block

/-- The last array of control points that was read from object `i` had another number of rows than `n`. -/
def Spec.NewCount (s : State α P) (i n : Nat) : Prop :=
  ∀ (o : Obj P) c k q (p : Pointers), s.objs[i]? = some o → o.core = some c → s.cores[c]? = some k → k.pointers = some q → s.pointers[q]? = some p → p.len ≠ n

/-- The calls after which arrays stay connected. As for C117, and
* no two splines share their core,
* arrays of a spline are released before its properties are assigned, or before it is refined,
* refining does not lead back to the number of control points the last array had. -/
def Spec.Connecting (count : P → Nat) (s : State α P) : Op α P → Prop
  | .share _ => False
  | .setProps i p => Spec.Allowed count s (.setProps i p) ∧ Spec.NoArrays s i
  | .modify i (some x) => Spec.NoArrays s i ∧ Spec.NewCount s i x.2.length
  | op => Spec.Allowed count s op

/-- Every call of a history is, in the state it meets. -/
def Spec.AllConnecting (count : P → Nat) (views : Bool) : State α P → List (Op α P) → Prop
  | _, [] => True
  | s, op :: ops => Spec.Connecting count s op ∧ ∀ r, step count views s op = some r → Spec.AllConnecting count views r.state ops

/-- The call assigns to object `i`, clears it or refines it. -/
def Spec.Changes (i : Nat) : Op α P → Prop
  | .setProps k _ => k = i
  | .setCps k _ => k = i
  | .clear k => k = i
  | .modify k _ => k = i
  | _ => False

/-- The call releases array `j`. -/
def Spec.Releases (j : Nat) : Op α P → Prop
  | .release k => k = j
  | _ => False

/-! ### the invariant -/

/-- The block is the memory of object `i`: of the array it keeps, or of its core. -/
def Owns (s : State α P) (b i : Nat) : Prop :=
  ∃ o, s.objs[i]? = some o ∧ ((∃ a, o.saved = some a ∧ a.block = b) ∨ ∃ c k, o.core = some c ∧ s.cores[c]? = some k ∧ k.block = b)

structure Good (s : State α P) (o : Obj P) : Prop where
  same : ∀ (a : Arr) c k, o.saved = some a → o.core = some c → s.cores[c]? = some k → s.mem[a.block]? = s.mem[k.block]?
  ptr : ∀ (a : Arr) q, o.saved = some a → a.source = some q → ∃ (c : Nat) (k : Core P) (p : Pointers), o.core = some c ∧ s.cores[c]? = some k ∧ s.pointers[q]? = some p ∧ p.core = c ∧
    p.block = k.block ∧ k.pointers = some q
  cache : ∀ (c : Nat) k q, o.core = some c → s.cores[c]? = some k → k.pointers = some q → ∃ p, s.pointers[q]? = some p ∧
    (p.len = (s.mem[k.block]?).elim 0 List.length → p.core = c ∧ p.block = k.block)

/-- The array belongs to no spline any more. -/
structure Detached (s : State α P) (a : Arr) : Prop where
  bound : a.block < s.mem.length
  free : ∀ i, ¬ Owns s a.block i
  ptr : ∀ q, a.source = some q → ∃ p, s.pointers[q]? = some p ∧ p.core < s.cores.length ∧ s.referenced p.core = false ∧ (s.cores[p.core]?).bind Core.pointers = some q

def Held (s : State α P) (a : Arr) : Prop := (∃ (i : Nat) (o : Obj P), s.objs[i]? = some o ∧ o.saved = some a ∧ (o.core ≠ none → a.source ≠ none)) ∨ Detached s a

structure Sync (s : State α P) : Prop where
  good : ∀ (i : Nat) o, s.objs[i]? = some o → Good s o
  owns : ∀ b i j, Owns s b i → Owns s b j → i = j
  cores : ∀ (i j : Nat) (o o' : Obj P) (c : Nat), s.objs[i]? = some o → s.objs[j]? = some o' → o.core = some c → o'.core = some c → i = j
  held : ∀ (j : Nat) a, s.held[j]? = some (some a) → Held s a

theorem sync_empty : Sync ({} : State α P) := ⟨by simp, by simp [Owns], by simp, by simp⟩

theorem Inv.heldBound {s : State α P} (h : Inv s) {a : Arr} (ha : Held s a) : a.block < s.mem.length := by
  rcases ha with ⟨i, o, ho, ha, -⟩ | ha
  · exact h.saved i o a ho ha
  · exact ha.bound

theorem Good.mono {s s' : State α P} {o : Obj P} (h : Good s o) (hc : ∀ c k, o.core = some c → s'.cores[c]? = some k → s.cores[c]? = some k)
    (hc' : ∀ c k, o.core = some c → s.cores[c]? = some k → s'.cores[c]? = some k)
    (hp : ∀ (q : Nat) p, s.pointers[q]? = some p → s'.pointers[q]? = some p) (hm : ∀ b, b < s.mem.length → s'.mem[b]? = s.mem[b]?)
    (hs : ∀ a, o.saved = some a → a.block < s.mem.length) (hb : ∀ (c : Nat) k, o.core = some c → s.cores[c]? = some k → k.block < s.mem.length) : Good s' o := by
  refine ⟨fun a c k ha hco hk => ?_, fun a q ha hq => ?_, fun c k q hco hk hq => ?_⟩
  · have hk0 := hc c k hco hk
    rw [hm _ (hs a ha), hm _ (hb c k hco hk0)]
    exact h.same a c k ha hco hk0
  · obtain ⟨c, k, p, e1, e2, e3, e4⟩ := h.ptr a q ha hq
    exact ⟨c, k, p, e1, hc' c k e1 e2, hp q p e3, e4⟩
  · have hk0 := hc c k hco hk
    obtain ⟨p, h1, h2⟩ := h.cache c k q hco hk0 hq
    exact ⟨p, hp q p h1, by rw [hm _ (hb c k hco hk0)]; exact h2⟩

/-- A change of object `i` that leaves everything else as it is. -/
theorem Sync.frame {s s' : State α P} (h : Sync s) (hI : Inv s) (i : Nat) (o' : Obj P) (hobj : ∀ j, j ≠ i → s'.objs[j]? = s.objs[j]?) (ho' : s'.objs[i]? = some o')
    (hmem : ∀ b, b < s.mem.length → s'.mem[b]? = s.mem[b]?) (hlen : s.mem.length ≤ s'.mem.length)
    (hcores : ∀ (c : Nat) k, s.cores[c]? = some k → (∀ o, s.objs[i]? = some o → o.core ≠ some c) → s'.cores[c]? = some k) (hclen : s.cores.length ≤ s'.cores.length)
    (hptr : ∀ (q : Nat) p, s.pointers[q]? = some p → s'.pointers[q]? = some p) (hheld : s'.held = s.held) (hmulti : s'.multis = s.multis)
    (hblocks : ∀ b, Owns s' b i → Owns s b i ∨ s.mem.length ≤ b) (hcore : ∀ c, o'.core = some c → (∃ o, s.objs[i]? = some o ∧ o.core = some c) ∨ s.cores.length ≤ c)
    (hgood : Good s' o')
    (harr : ∀ (o : Obj P) a (j : Nat), s.objs[i]? = some o → o.saved = some a → s.held[j]? = some (some a) → (o.core ≠ none → a.source ≠ none) →
      (o'.saved = some a ∧ (o'.core ≠ none → a.source ≠ none)) ∨ Detached s' a) : Sync s' := by
  have hnot : ∀ (j : Nat) (x : Obj P) c, j ≠ i → s.objs[j]? = some x → x.core = some c → ∀ o, s.objs[i]? = some o → o.core ≠ some c :=
    fun j x c hj hx hxc o ho hoc => hj (h.cores j i x o c hx ho hxc hoc)
  have hcj : ∀ (j : Nat) (x : Obj P) c k, j ≠ i → s.objs[j]? = some x → x.core = some c → s'.cores[c]? = some k → s.cores[c]? = some k := by
    intro j x c k hj hx hxc hk
    have h0 := List.getElem?_eq_getElem (hI.core j x c hx hxc)
    have := hcores c _ h0 (hnot j x c hj hx hxc)
    rw [h0, ← hk, this]
  have hownj : ∀ b j, j ≠ i → Owns s' b j → Owns s b j := by
    rintro b j hj ⟨x, hx, hb⟩
    rw [hobj j hj] at hx
    refine ⟨x, hx, hb.imp id ?_⟩
    rintro ⟨c, k, hc, hk, e⟩
    exact ⟨c, k, hc, hcj j x c k hj hx hc hk, e⟩
  have hbound : ∀ b j, Owns s b j → b < s.mem.length := by
    rintro b j ⟨x, hx, ⟨a, ha, rfl⟩ | ⟨c, k, hc, hk, rfl⟩⟩
    · exact hI.saved j x a hx ha
    · exact hI.block c k hk
  refine ⟨fun j o ho => ?_, fun b j l hj hl => ?_, fun j l x y c hx hy hxc hyc => ?_, fun j a ha => ?_⟩
  · by_cases hj : j = i
    · subst hj
      rw [ho'] at ho
      cases ho
      exact hgood
    · rw [hobj j hj] at ho
      exact (h.good j o ho).mono (fun c k hc hk => hcj j o c k hj ho hc hk) (fun c k hc hk => hcores c k hk (hnot j o c hj ho hc)) hptr hmem (fun a ha => hI.saved j o a ho ha)
        fun c k _ hk => hI.block c k hk
  · by_cases hji : j = i
    · by_cases hli : l = i
      · rw [hji, hli]
      · have h1 := hownj b l hli hl
        rw [hji] at hj
        rcases hblocks b hj with h2 | h2
        · rw [hji]
          exact h.owns b i l h2 h1
        · exact absurd (hbound b l h1) (by omega)
    · have h1 := hownj b j hji hj
      by_cases hli : l = i
      · rw [hli] at hl
        rcases hblocks b hl with h2 | h2
        · rw [hli]
          exact h.owns b j i h1 h2
        · exact absurd (hbound b j h1) (by omega)
      · exact h.owns b j l h1 (hownj b l hli hl)
  · by_cases hji : j = i
    · by_cases hli : l = i
      · rw [hji, hli]
      · rw [hji, ho'] at hx
        cases hx
        rw [hobj l hli] at hy
        rcases hcore c hxc with ⟨o, ho, hoc⟩ | h2
        · rw [hji]
          exact h.cores i l o y c ho hy hoc hyc
        · exact absurd (hI.core l y c hy hyc) (by omega)
    · rw [hobj j hji] at hx
      by_cases hli : l = i
      · rw [hli, ho'] at hy
        cases hy
        rcases hcore c hyc with ⟨o, ho, hoc⟩ | h2
        · rw [hli]
          exact h.cores j i x o c hx ho hxc hoc
        · exact absurd (hI.core j x c hx hxc) (by omega)
      · rw [hobj l hli] at hy
        exact h.cores j l x y c hx hy hxc hyc
  · rw [hheld] at ha
    rcases h.held j a ha with ⟨l, o, ho, hs, hsrc⟩ | hd
    · by_cases hli : l = i
      · rw [hli] at ho
        rcases harr o a j ho hs ha hsrc with ⟨h1, h2⟩ | h1
        · exact Or.inl ⟨i, o', ho', h1, h2⟩
        · exact Or.inr h1
      · exact Or.inl ⟨l, o, by rw [hobj l hli]; exact ho, hs, hsrc⟩
    · refine Or.inr ⟨by have := hd.bound; omega, fun l hl => ?_, fun q hq => ?_⟩
      · by_cases hli : l = i
        · rw [hli] at hl
          rcases hblocks _ hl with h2 | h2
          · exact hd.free i h2
          · have := hd.bound
            omega
        · exact hd.free l (hownj _ l hli hl)
      · obtain ⟨p, h1, h2, h3, h4⟩ := hd.ptr q hq
        have hn : ∀ (l : Nat) (o : Obj P), s.objs[l]? = some o → o.core ≠ some p.core := by
          intro l o ho hoc
          rw [referenced_iff.2 (Or.inl ⟨l, o, ho, hoc⟩)] at h3
          cases h3
        have h0 : s.cores[p.core]? = some s.cores[p.core] := List.getElem?_eq_getElem h2
        refine ⟨p, hptr q p h1, by omega, ?_, ?_⟩
        · by_contra hne
          rw [Bool.not_eq_false] at hne
          rcases referenced_iff.1 hne with ⟨l, o, ho, hoc⟩ | ⟨m, hm, hmc⟩
          · by_cases hli : l = i
            · rw [hli, ho'] at ho
              cases ho
              rcases hcore _ hoc with ⟨o, ho, hoc⟩ | hge
              · exact hn i o ho hoc
              · omega
            · rw [hobj l hli] at ho
              exact hn l o ho hoc
          · rw [hmulti] at hm
            rw [referenced_iff.2 (Or.inr ⟨m, hm, hmc⟩)] at h3
            cases h3
        · rw [hcores _ _ h0 fun o ho => hn i o ho]
          rw [h0] at h4
          exact h4

theorem Sync.alloc {s : State α P} (h : Sync s) (hI : Inv s) (rows : List α) : Sync (alloc s rows) := by
  have hm : ∀ b, b < s.mem.length → (Lifetime.alloc s rows).mem[b]? = s.mem[b]? := fun b hb => by simp [Lifetime.alloc, List.getElem?_append_left hb]
  refine ⟨fun i o ho => ?_, h.owns, h.cores, fun j a ha => ?_⟩
  · exact (h.good i o ho).mono (fun _ _ _ hk => hk) (fun _ _ _ hk => hk) (fun _ _ hp => hp) hm (fun a ha => hI.saved i o a ho ha) fun c k _ hk => hI.block c k hk
  · rcases h.held j a ha with h1 | h1
    · exact Or.inl h1
    · exact Or.inr ⟨by have := h1.bound; simp only [Lifetime.alloc, List.length_append]; omega, h1.free, h1.ptr⟩

/-! ### assigning to rows -/

/-- New contents of the same sizes. -/
theorem Sync.contents {s : State α P} (h : Sync s) (mem' : List (List α)) (hlen : ∀ b : Nat, (mem'[b]?).elim 0 List.length = (s.mem[b]?).elim 0 List.length) (hn : mem'.length = s.mem.length)
    (hsame : ∀ (i : Nat) (o : Obj P) (a : Arr) c k, s.objs[i]? = some o → o.saved = some a → o.core = some c → s.cores[c]? = some k → mem'[a.block]? = mem'[k.block]?) :
    Sync { s with mem := mem' } := by
  refine ⟨fun i o ho => ⟨fun a c k => hsame i o a c k ho, (h.good i o ho).ptr, fun c k q hc hk hq => ?_⟩, h.owns, h.cores, fun j a ha => ?_⟩
  · obtain ⟨p, h1, h2⟩ := (h.good i o ho).cache c k q hc hk hq
    refine ⟨p, h1, fun e => h2 ?_⟩
    rw [e]
    exact hlen k.block
  · rcases h.held j a ha with h1 | h1
    · exact Or.inl h1
    · refine Or.inr ⟨?_, h1.free, h1.ptr⟩
      have := h1.bound
      simp only
      omega

theorem modify_get {mem : List (List α)} {b : Nat} {f : List α → List α} (j : Nat) : (mem.modify b f)[j]? = if b = j then (mem[j]?).map f else mem[j]? := by
  rw [List.getElem?_modify]
  split
  · rfl
  · simp

theorem store_get (s : State α P) (b row : Nat) (v : α) (j : Nat) : (store s b row v).mem[j]? = if b = j then (s.mem[j]?).map (fun rows => rows.set row v) else s.mem[j]? := modify_get j

theorem store_len (s : State α P) (b row : Nat) (v : α) (j : Nat) : ((store s b row v).mem[j]?).elim 0 List.length = (s.mem[j]?).elim 0 List.length := by
  rw [store_get]
  split
  · cases s.mem[j]? <;> simp
  · rfl

/-- What an assignment to the array does: it is stored in the memory of the array, and for a spline also where the core reads. -/
theorem write_step {count : P → Nat} {views : Bool} {s : State α P} (h : Sync s) (hI : Inv s) {j : Nat} {a : Arr} (ha : s.held[j]? = some (some a)) (row : Nat) (v : α) :
    ∃ s' raised, step count views s (.write j row v) = some ⟨s', raised⟩ ∧ Sync s' ∧ s'.cores = s.cores ∧ s'.objs = s.objs ∧ s'.held = s.held ∧ s'.multis = s.multis ∧ s'.pointers = s.pointers ∧
      (raised = true → s' = s) ∧ (∀ rows, s.mem[a.block]? = some rows → (raised = false ↔ row < rows.length)) ∧
      (raised = false → ∀ b, (∃ (i : Nat) (o : Obj P) (c : Nat) (k : Core P), s.objs[i]? = some o ∧ o.saved = some a ∧ o.core = some c ∧ s.cores[c]? = some k ∧ k.block = b) ∨ b = a.block →
        s'.mem[b]? = (s.mem[b]?).map fun rows => rows.set row v) ∧
      (∀ b, b ≠ a.block → (∀ (i : Nat) (o : Obj P) (c : Nat) (k : Core P), s.objs[i]? = some o → o.saved = some a → o.core = some c → s.cores[c]? = some k → k.block ≠ b) → s'.mem[b]? = s.mem[b]?) := by
  have hb := hI.heldBound (h.held j a ha)
  have hm : s.mem[a.block]? = some s.mem[a.block] := List.getElem?_eq_getElem hb
  simp only [step, ha, Option.bind_some, id_eq, hm]
  by_cases hrow : s.mem[a.block].length ≤ row
  · rw [if_pos hrow]
    refine ⟨s, true, rfl, h, rfl, rfl, rfl, rfl, rfl, fun _ => rfl, fun rows hr => ?_, by simp, fun _ _ _ => rfl⟩
    cases hr
    simp only [Bool.true_eq_false, false_iff]
    omega
  · rw [if_neg hrow]
    rcases h.held j a ha with ⟨i, o, ho, hs, hsrc⟩ | hd
    · cases hc : o.core with
      | none =>
        have hq : a.source = none := by
          cases hq : a.source with
          | none => rfl
          | some q =>
            obtain ⟨c, k, p, e, -⟩ := (h.good i o ho).ptr a q hs hq
            rw [hc] at e
            cases e
        have hown : ∀ b l, Owns s b l → l ≠ i → b ≠ a.block := by
          rintro b l hl hne rfl
          exact hne (h.owns _ l i hl ⟨o, ho, Or.inl ⟨a, hs, rfl⟩⟩)
        rw [hq, Option.bind_none]
        refine ⟨store s a.block row v, false, rfl, h.contents _ (store_len s _ row v) (by simp) ?_, rfl, rfl, rfl, rfl, rfl, by simp, fun rows hr => ?_,
          fun _ b hb' => ?_, fun b hne _ => ?_⟩
        · intro l x a' c k hx ha' hxc hk
          have hli : l ≠ i := by
            rintro rfl
            rw [ho] at hx
            cases hx
            rw [hc] at hxc
            cases hxc
          have e1 := store_get s a.block row v a'.block
          have e2 := store_get s a.block row v k.block
          rw [if_neg (Ne.symm (hown _ l ⟨x, hx, Or.inl ⟨a', ha', rfl⟩⟩ hli))] at e1
          rw [if_neg (Ne.symm (hown _ l ⟨x, hx, Or.inr ⟨c, k, hxc, hk, rfl⟩⟩ hli))] at e2
          have := (h.good l x hx).same a' c k ha' hxc hk
          exact e1.trans (this.trans e2.symm)
        · cases hr
          simp only [true_iff]
          omega
        · rcases hb' with ⟨l, x, c, k, hx, hxs, hxc, hk, -⟩ | rfl
          · have : l = i := h.owns a.block l i ⟨x, hx, Or.inl ⟨a, hxs, rfl⟩⟩ ⟨o, ho, Or.inl ⟨a, hs, rfl⟩⟩
            rw [this, ho] at hx
            cases hx
            rw [hc] at hxc
            cases hxc
          · rw [store_get, if_pos rfl]
        · rw [store_get, if_neg (Ne.symm hne)]
      | some c =>
        obtain ⟨q, hq⟩ := Option.ne_none_iff_exists'.1 (hsrc (by rw [hc]; simp))
        obtain ⟨c', k, p, e, hk, hp, e4, e5, e6⟩ := (h.good i o ho).ptr a q hs hq
        rw [hc] at e
        cases e
        have href : s.referenced c = true := referenced_iff.2 (Or.inl ⟨i, o, ho, hc⟩)
        have hal : s.alive k.block = true := by
          obtain ⟨k', rows, hk', hl, -⟩ := hI.load ho hc
          rw [hk] at hk'
          cases hk'
          unfold State.loadCore State.load at hl
          rw [hk, Option.bind_some] at hl
          by_contra hne
          rw [if_neg hne] at hl
          cases hl
        rw [hq, Option.bind_some, hp, Option.map_some]
        simp only
        rw [if_neg (by rw [e4, href]; simp), if_pos (by rw [e5]; exact hal)]
        have hsame := (h.good i o ho).same a c k hs hc hk
        have hown : ∀ b l, Owns s b l → l ≠ i → b ≠ a.block ∧ b ≠ k.block := by
          intro b l hl hne
          constructor
          · rintro rfl
            exact hne (h.owns _ l i hl ⟨o, ho, Or.inl ⟨a, hs, rfl⟩⟩)
          · rintro rfl
            exact hne (h.owns _ l i hl ⟨o, ho, Or.inr ⟨c, k, hc, hk, rfl⟩⟩)
        have hget : ∀ b, (store (store s a.block row v) p.block row v).mem[b]? = if b = a.block ∨ b = k.block then (s.mem[b]?).map (fun rows => rows.set row v) else s.mem[b]? := by
          intro b
          rw [store_get, store_get, e5]
          by_cases h1 : k.block = b
          · by_cases h2 : a.block = b
            · rw [if_pos h1, if_pos h2, if_pos (Or.inl h2.symm)]
              cases s.mem[b]? <;> simp
            · rw [if_pos h1, if_neg h2, if_pos (Or.inr h1.symm)]
          · by_cases h2 : a.block = b
            · rw [if_neg h1, if_pos h2, if_pos (Or.inl h2.symm)]
            · rw [if_neg h1, if_neg h2, if_neg (by rintro (h | h); exacts [h2 h.symm, h1 h.symm])]
        refine ⟨store (store s a.block row v) p.block row v, false, rfl, h.contents _ (fun b => ?_) (by simp [store]) ?_, rfl, rfl, rfl, rfl, rfl, by simp, fun rows hr => ?_,
          fun _ b hb' => ?_, fun b hne hnk => ?_⟩
        · exact (store_len _ _ _ _ b).trans (store_len _ _ _ _ b)
        · intro l x a' c' k' hx ha' hxc hk'
          by_cases hli : l = i
          · rw [hli, ho] at hx
            cases hx
            rw [hs] at ha'
            cases ha'
            rw [hc] at hxc
            cases hxc
            rw [hk] at hk'
            cases hk'
            have e1 := hget a.block
            have e2 := hget k.block
            rw [if_pos (Or.inl rfl)] at e1
            rw [if_pos (Or.inr rfl)] at e2
            exact e1.trans (by rw [hsame]; exact e2.symm)
          · have e1 := hget a'.block
            have e2 := hget k'.block
            have o1 := hown _ l ⟨x, hx, Or.inl ⟨a', ha', rfl⟩⟩ hli
            have o2 := hown _ l ⟨x, hx, Or.inr ⟨c', k', hxc, hk', rfl⟩⟩ hli
            rw [if_neg (by rintro (h | h); exacts [o1.1 h, o1.2 h])] at e1
            rw [if_neg (by rintro (h | h); exacts [o2.1 h, o2.2 h])] at e2
            exact e1.trans (((h.good l x hx).same a' c' k' ha' hxc hk').trans e2.symm)
        · cases hr
          simp only [true_iff]
          omega
        · have : b = a.block ∨ b = k.block := by
            rcases hb' with ⟨l, x, c', k', hx, hxs, hxc, hk', rfl⟩ | rfl
            · have : l = i := h.owns a.block l i ⟨x, hx, Or.inl ⟨a, hxs, rfl⟩⟩ ⟨o, ho, Or.inl ⟨a, hs, rfl⟩⟩
              rw [this, ho] at hx
              cases hx
              rw [hc] at hxc
              cases hxc
              rw [hk] at hk'
              cases hk'
              exact Or.inr rfl
            · exact Or.inl rfl
          rw [hget, if_pos this]
        · rw [hget, if_neg (by rintro (h | h); exacts [hne h, hnk i o c k ho hs hc hk h.symm])]
    · have hfree : ∀ b l, Owns s b l → b ≠ a.block := by
        rintro b l hl rfl
        exact hd.free l hl
      have hS : Sync (store s a.block row v) := by
        refine h.contents _ (store_len s _ row v) (by simp) ?_
        intro l x a' c k hx ha' hxc hk
        have e1 := store_get s a.block row v a'.block
        have e2 := store_get s a.block row v k.block
        rw [if_neg (Ne.symm (hfree _ l ⟨x, hx, Or.inl ⟨a', ha', rfl⟩⟩))] at e1
        rw [if_neg (Ne.symm (hfree _ l ⟨x, hx, Or.inr ⟨c, k, hxc, hk, rfl⟩⟩))] at e2
        exact e1.trans (((h.good l x hx).same a' c k ha' hxc hk).trans e2.symm)
      refine ⟨store s a.block row v, false, ?_, hS, rfl, rfl, rfl, rfl, rfl, by simp, fun rows hr => ?_, fun _ b hb' => ?_, fun b hne _ => ?_⟩
      · cases hq : a.source with
        | none => rw [Option.bind_none]
        | some q =>
          obtain ⟨p, h1, h2, h3, h4⟩ := hd.ptr q hq
          rw [Option.bind_some, h1, Option.map_some]
          simp only
          rw [if_pos ⟨h3, h4⟩]
      · cases hr
        simp only [true_iff]
        omega
      · rcases hb' with ⟨l, x, c, k, hx, hxs, -⟩ | rfl
        · exact absurd ⟨x, hx, Or.inl ⟨a, hxs, rfl⟩⟩ (hd.free l)
        · rw [store_get, if_pos rfl]
      · rw [store_get, if_neg (Ne.symm hne)]

/-! ### the other calls -/

/-- The pointers that are used for the array: of this core, to the memory it reads. -/
theorem corePointers_spec {s : State α P} {c : Nat} {k : Core P} {o : Obj P} (hk : s.cores[c]? = some k) (ho : o.core = some c) (hg : Good s o) :
    (∀ d, d ≠ c → (corePointers s c k).1.cores[d]? = s.cores[d]?) ∧ (corePointers s c k).1.cores[c]? = some { k with pointers := some (corePointers s c k).2 } ∧
    (∀ (q : Nat) p, s.pointers[q]? = some p → (corePointers s c k).1.pointers[q]? = some p) ∧
    ∃ p, (corePointers s c k).1.pointers[(corePointers s c k).2]? = some p ∧ p.core = c ∧ p.block = k.block := by
  have hc : c < s.cores.length := by
    by_contra hne
    rw [List.getElem?_eq_none (by omega)] at hk
    cases hk
  unfold corePointers
  simp only
  split
  · rename_i q hq
    simp only [Option.bind_eq_some_iff] at hq
    obtain ⟨q', hq', p, hp, e⟩ := hq
    split at e
    · rename_i hl
      cases e
      obtain ⟨p', h1, h2⟩ := hg.cache c k q ho hk hq'
      rw [hp] at h1
      cases h1
      obtain ⟨h3, h4⟩ := h2 hl
      refine ⟨fun _ _ => rfl, ?_, fun _ _ h => h, p, hp, h3, h4⟩
      rw [hk, ← hq']
    · cases e
  · refine ⟨fun d hd => ?_, ?_, fun q p hp => getElem?_append_of hp, ⟨c, k.block, (s.mem[k.block]?).elim 0 List.length⟩, ?_, rfl, rfl⟩
    · simp [List.getElem?_set_ne (Ne.symm hd)]
    · simp [hc]
    · simp

theorem lt_of_get {β : Type} {l : List β} {i : Nat} {x : β} (h : l[i]? = some x) : i < l.length := by
  by_contra hne
  rw [List.getElem?_eq_none (by omega)] at h
  cases h

/-- The object afterwards has pointers in its array, which is in the same memory if there was one before. -/
theorem prepare_sync {s s' : State α P} (h : Sync s) (hI : Inv s) {i : Nat} (hs : prepare s i = some s') :
    Sync s' ∧ s'.held = s.held ∧ (∀ j, j ≠ i → s'.objs[j]? = s.objs[j]?) ∧ ∃ o o', s.objs[i]? = some o ∧ s'.objs[i]? = some o' ∧ o'.core = o.core ∧
      (o.core ≠ none → ∃ a, o'.saved = some a ∧ a.source ≠ none) ∧ (∀ a', o'.saved = some a' → (∃ a, o.saved = some a ∧ a'.block = a.block) ∨ s.mem.length ≤ a'.block) ∧
      (∀ a, o.saved = some a → (o.core ≠ none → a.source ≠ none) → o'.saved = some a) ∧
      (∀ c k, o.core = some c → s.cores[c]? = some k → ∃ k', s'.cores[c]? = some k' ∧ s'.mem[k'.block]? = s.mem[k.block]?) := by
  unfold prepare at hs
  cases ho : s.objs[i]? with
  | none => rw [ho] at hs; cases hs
  | some o =>
    have hi := lt_of_get ho
    rw [ho] at hs
    simp only at hs
    cases hc : o.core with
    | none =>
      rw [hc] at hs
      cases hs
      refine ⟨h, rfl, fun _ _ => rfl, o, o, rfl, ho, rfl, by simp [hc], fun a' ha' => Or.inl ⟨a', ha', rfl⟩, fun a ha _ => ha, by simp [hc]⟩
    | some c =>
      rw [hc] at hs
      simp only at hs
      have hlt := hI.core i o c ho hc
      have hk : s.cores[c]? = some s.cores[c] := List.getElem?_eq_getElem hlt
      have hkb := hI.block c _ hk
      rw [hk] at hs
      simp only at hs
      cases ha : o.saved with
      | some a =>
        rw [ha] at hs
        simp only at hs
        split at hs
        · rename_i hsome
          cases hs
          refine ⟨h, rfl, fun _ _ => rfl, o, o, rfl, ho, rfl, fun _ => ⟨a, ha, ?_⟩, fun a' ha' => Or.inl ⟨a', ha', rfl⟩, fun a ha _ => ha, fun c' k hc' hk' => ⟨k, hk', rfl⟩⟩
          intro e
          rw [e] at hsome
          cases hsome
        · rename_i hnone
          cases hs
          obtain ⟨e1, e2, e3, e4⟩ := corePointers_frame s c s.cores[c]
          obtain ⟨f1, f2, f3, p, f4, f5, f6⟩ := corePointers_spec hk hc (h.good i o ho)
          have f0 := (corePointers_cores hk).1
          generalize corePointers s c s.cores[c] = r at *
          have hget : (setObj r.1 i { o with saved := some ⟨a.block, some r.2⟩ }).objs[i]? = some { o with saved := some ⟨a.block, some r.2⟩ } := setObj_get _ (by rw [e2]; exact hi)
          have hother : ∀ j, j ≠ i → (setObj r.1 i { o with saved := some ⟨a.block, some r.2⟩ }).objs[j]? = s.objs[j]? := by
            intro j hj
            simp [setObj, List.getElem?_set_ne (Ne.symm hj), e2]
          rw [hc] at hget hother
          refine ⟨?_, e4, hother, o, _, rfl, hget, hc.symm, fun _ => ⟨_, rfl, by simp⟩, ?_, ?_, ?_⟩
          · refine h.frame hI i _ hother hget (fun b hb => by rw [setObj, e1]) (Nat.le_of_eq (by rw [setObj, e1])) ?_ (Nat.le_of_eq (by rw [setObj, f0])) f3 e4 e3 ?_ ?_ ?_ ?_
            · intro d k hd hne
              exact (f1 d (fun e => hne o ho (by rw [e]; exact hc))).trans hd
            · rintro b ⟨x, hx, hb⟩
              rw [hget] at hx
              cases hx
              left
              rcases hb with ⟨a', ha', e⟩ | ⟨c', k', hc', hk', e⟩
              · cases ha'
                exact ⟨o, ho, Or.inl ⟨a, ha, e⟩⟩
              · cases hc'
                have hk'' : r.1.cores[c]? = some k' := hk'
                rw [f2] at hk''
                cases hk''
                exact ⟨o, ho, Or.inr ⟨c, _, hc, hk, e⟩⟩
            · intro d hd
              exact Or.inl ⟨o, ho, by rw [hc]; exact hd⟩
            · refine ⟨fun a' c' k' ha' hc' hk' => ?_, fun a' q ha' hq => ?_, fun c' k' q hc' hk' hq => ?_⟩
              · cases ha'
                cases hc'
                have hk'' : r.1.cores[c]? = some k' := hk'
                rw [f2] at hk''
                cases hk''
                rw [setObj, e1]
                exact (h.good i o ho).same a c s.cores[c] ha hc hk
              · cases ha'
                cases hq
                exact ⟨c, _, p, rfl, f2, f4, f5, f6, rfl⟩
              · cases hc'
                have hk'' : r.1.cores[c]? = some k' := hk'
                rw [f2] at hk''
                cases hk''
                cases hq
                exact ⟨p, f4, fun _ => ⟨f5, f6⟩⟩
            · intro x a' j hx ha' hj hsrc
              rw [ho] at hx
              cases hx
              rw [ha] at ha'
              cases ha'
              refine absurd ?_ (hsrc (by rw [hc]; simp))
              cases e : a.source with
              | none => rfl
              | some q => rw [e] at hnone; exact absurd rfl hnone
          · intro a' ha'
            cases ha'
            exact Or.inl ⟨a, ha, rfl⟩
          · intro a' ha' hsrc
            rw [ha] at ha'
            cases ha'
            refine absurd ?_ (hsrc (by rw [hc]; simp))
            cases e : a.source with
            | none => rfl
            | some q => rw [e] at hnone; exact absurd rfl hnone
          · intro c' k hc' hk'
            rw [hc] at hc'
            cases hc'
            rw [hk] at hk'
            cases hk'
            exact ⟨_, f2, by rw [setObj, e1]⟩
      | none =>
        rw [ha] at hs
        simp only at hs
        obtain ⟨k, rows, hk', hl, hrows⟩ := hI.load ho hc
        rw [hk] at hk'
        cases hk'
        rw [hl, Option.map_some] at hs
        cases hs
        have hkA : (Lifetime.alloc s rows).cores[c]? = some s.cores[c] := hk
        have hA := h.alloc hI rows
        have hmA : ∀ b, b < s.mem.length → (Lifetime.alloc s rows).mem[b]? = s.mem[b]? := fun b hb => by simp [Lifetime.alloc, List.getElem?_append_left hb]
        have hnew : (Lifetime.alloc s rows).mem[s.mem.length]? = some rows := by simp [Lifetime.alloc]
        obtain ⟨e1, e2, e3, e4⟩ := corePointers_frame (Lifetime.alloc s rows) c s.cores[c]
        obtain ⟨f1, f2, f3, p, f4, f5, f6⟩ := corePointers_spec hkA hc (hA.good i o ho)
        have f0 := (corePointers_cores hkA).1
        generalize corePointers (Lifetime.alloc s rows) c s.cores[c] = r at *
        have hget : (setObj r.1 i { o with saved := some ⟨s.mem.length, some r.2⟩ }).objs[i]? = some { o with saved := some ⟨s.mem.length, some r.2⟩ } :=
          setObj_get _ (by rw [e2]; exact hi)
        have hother : ∀ j, j ≠ i → (setObj r.1 i { o with saved := some ⟨s.mem.length, some r.2⟩ }).objs[j]? = s.objs[j]? := by
          intro j hj
          simp [setObj, List.getElem?_set_ne (Ne.symm hj), e2, Lifetime.alloc]
        rw [hc] at hget hother
        refine ⟨?_, e4, hother, o, _, rfl, hget, hc.symm, fun _ => ⟨_, rfl, by simp⟩, ?_, ?_, ?_⟩
        · refine h.frame hI i _ hother hget (fun b hb => by rw [setObj, e1]; exact hmA b hb) (by rw [setObj, e1]; simp [Lifetime.alloc]) ?_ (by rw [setObj, f0]; exact Nat.le_refl _) f3 e4 e3 ?_ ?_ ?_ ?_
          · intro d k hd hne
            exact (f1 d (fun e => hne o ho (by rw [e]; exact hc))).trans hd
          · rintro b ⟨x, hx, hb⟩
            rw [hget] at hx
            cases hx
            rcases hb with ⟨a', ha', e⟩ | ⟨c', k', hc', hk', e⟩
            · cases ha'
              exact Or.inr (Nat.le_of_eq e)
            · cases hc'
              have hk'' : r.1.cores[c]? = some k' := hk'
              rw [f2] at hk''
              cases hk''
              exact Or.inl ⟨o, ho, Or.inr ⟨c, _, hc, hk, e⟩⟩
          · intro d hd
            exact Or.inl ⟨o, ho, by rw [hc]; exact hd⟩
          · refine ⟨fun a' c' k' ha' hc' hk' => ?_, fun a' q ha' hq => ?_, fun c' k' q hc' hk' hq => ?_⟩
            · cases ha'
              cases hc'
              have hk'' : r.1.cores[c]? = some k' := hk'
              rw [f2] at hk''
              cases hk''
              rw [setObj, e1, hnew]
              simp only
              rw [hmA _ hkb, hrows]
            · cases ha'
              cases hq
              exact ⟨c, _, p, rfl, f2, f4, f5, f6, rfl⟩
            · cases hc'
              have hk'' : r.1.cores[c]? = some k' := hk'
              rw [f2] at hk''
              cases hk''
              cases hq
              exact ⟨p, f4, fun _ => ⟨f5, f6⟩⟩
          · intro x a' j hx ha' hj hsrc
            rw [ho] at hx
            cases hx
            rw [ha] at ha'
            cases ha'
        · intro a' ha'
          cases ha'
          exact Or.inr (Nat.le_refl _)
        · intro a' ha'
          rw [ha] at ha'
          cases ha'
        · intro c' k hc' hk'
          rw [hc] at hc'
          cases hc'
          rw [hk] at hk'
          cases hk'
          exact ⟨_, f2, by rw [setObj, e1]; exact hmA _ hkb⟩

/-- An object that gets rid of its core, and of its array or has a new one. -/
theorem Sync.drop {s s' : State α P} (h : Sync s) (hI : Inv s) {i : Nat} {o o' : Obj P} (ho : s.objs[i]? = some o) (hs : Spec.Single s i) (hc : o'.core = none)
    (ha : ∀ a, o'.saved = some a → s.mem.length ≤ a.block ∧ a.source = none) (hmem : ∀ b, b < s.mem.length → s'.mem[b]? = s.mem[b]?) (hlen : s.mem.length ≤ s'.mem.length)
    (e1 : s'.cores = s.cores) (e2 : s'.objs = s.objs.set i o') (e3 : s'.held = s.held) (e4 : s'.multis = s.multis) (e5 : s'.pointers = s.pointers) : Sync s' := by
  have hi := lt_of_get ho
  have hget : s'.objs[i]? = some o' := by simp [e2, hi]
  have hother : ∀ j, j ≠ i → s'.objs[j]? = s.objs[j]? := fun j hj => by simp [e2, List.getElem?_set_ne (Ne.symm hj)]
  have hownj : ∀ b j, j ≠ i → Owns s' b j → Owns s b j := by
    rintro b j hj ⟨x, hx, hb⟩
    rw [hother j hj] at hx
    rw [e1] at hb
    exact ⟨x, hx, hb⟩
  have howni : ∀ b, Owns s' b i → s.mem.length ≤ b := by
    rintro b ⟨x, hx, hb⟩
    rw [hget] at hx
    cases hx
    rcases hb with ⟨a, ha', rfl⟩ | ⟨c, k, hc', -⟩
    · exact (ha a ha').1
    · rw [hc] at hc'
      cases hc'
  refine h.frame hI i o' hother hget hmem hlen (fun c k hk _ => by rw [e1]; exact hk) (Nat.le_of_eq (by rw [e1])) (fun q p hp => by rw [e5]; exact hp) e3 e4 (fun b hb => Or.inr (howni b hb)) (by simp [hc]) ?_ ?_
  · refine ⟨by simp [hc], fun a q ha' hq => ?_, by simp [hc]⟩
    rw [(ha a ha').2] at hq
    cases hq
  · intro x a j hx ha' hj hsrc
    rw [ho] at hx
    cases hx
    right
    have hb := hI.saved i o a ho ha'
    refine ⟨by omega, fun l hl => ?_, fun q hq => ?_⟩
    · by_cases hli : l = i
      · rw [hli] at hl
        have := howni _ hl
        omega
      · exact hli (h.owns _ l i (hownj _ l hli hl) ⟨o, ho, Or.inl ⟨a, ha', rfl⟩⟩)
    · obtain ⟨c, k, p, hoc, hk, hp, h4, -, h6⟩ := (h.good i o ho).ptr a q ha' hq
      refine ⟨p, by rw [e5]; exact hp, by rw [e1, h4]; exact hI.core i o c ho hoc, ?_, by rw [e1, h4, hk, Option.bind_some]; exact h6⟩
      by_contra hne
      rw [Bool.not_eq_false] at hne
      rw [h4] at hne
      rcases referenced_iff.1 hne with ⟨l, x, hx, hxc⟩ | ⟨m, hm, hmc⟩
      · by_cases hli : l = i
        · rw [hli, hget] at hx
          cases hx
          rw [hc] at hxc
          cases hxc
        · rw [hother l hli] at hx
          exact hli (h.cores l i x o c hx ho hxc hoc)
      · rw [e4] at hm
        exact hs o c ho hoc m hm hmc

/-- `_new_core` when the user has no array of the spline. -/
theorem newCore_sync {count : P → Nat} {views : Bool} {s : State α P} (h : Sync s) (hI : Inv s) {i : Nat} (hno : Spec.NoArrays s i) {r : Res α P} (hr : newCore count views s i = some r) :
    Sync r.state ∧ r.state.held = s.held ∧ ∀ j, j ≠ i → r.state.objs[j]? = s.objs[j]? := by
  unfold newCore at hr
  cases ho : s.objs[i]? with
  | none => rw [ho] at hr; cases hr
  | some o =>
    have hi := lt_of_get ho
    rw [ho] at hr
    simp only at hr
    split at hr
    · rename_i a p ha hp
      have hb := hI.saved i o a ho ha
      have hm : s.mem[a.block]? = some s.mem[a.block] := List.getElem?_eq_getElem hb
      rw [hm] at hr
      simp only at hr
      have hno' : ∀ (x : Obj P) a' (j : Nat), s.objs[i]? = some x → x.saved = some a' → s.held[j]? = some (some a') → False := by
        intro x a' j hx ha' hj
        exact hno x a' hx ha' j a' hj rfl
      split at hr
      · cases hr
        have hother : ∀ j, j ≠ i → (setObj s i { o with saved := some ⟨a.block, none⟩ }).objs[j]? = s.objs[j]? := fun j hj => by simp [setObj, List.getElem?_set_ne (Ne.symm hj)]
        have hget := setObj_get (s := s) { o with saved := some ⟨a.block, none⟩ } hi
        refine ⟨h.frame hI i _ hother hget (fun _ _ => rfl) (Nat.le_refl _) (fun _ _ hk _ => hk) (Nat.le_refl _) (fun _ _ hp => hp) rfl rfl ?_ (fun c hc => Or.inl ⟨o, ho, hc⟩) ?_ ?_, rfl, hother⟩
        · rintro b ⟨x, hx, hb'⟩
          rw [hget] at hx
          cases hx
          rcases hb' with ⟨a', ha', e⟩ | hb'
          · cases ha'
            exact Or.inl ⟨o, ho, Or.inl ⟨a, ha, e⟩⟩
          · exact Or.inl ⟨o, ho, Or.inr hb'⟩
        · refine ⟨fun a' c k ha' hc hk => ?_, fun a' q ha' hq => ?_, (h.good i o ho).cache⟩
          · cases ha'
            exact (h.good i o ho).same a c k ha hc hk
          · cases ha'
            cases hq
        · exact fun x a' j hx ha' hj _ => (hno' x a' j hx ha' hj).elim
      · split at hr
        · cases hr
          simp only [setObj, List.set_set]
          have hother : ∀ j, j ≠ i → (s.objs.set i ⟨some s.cores.length, some ⟨a.block, none⟩, some p⟩)[j]? = s.objs[j]? := fun j hj => by simp [List.getElem?_set_ne (Ne.symm hj)]
          have hget : (s.objs.set i ⟨some s.cores.length, some ⟨a.block, none⟩, some p⟩)[i]? = some ⟨some s.cores.length, some ⟨a.block, none⟩, some p⟩ := by simp [hi]
          refine ⟨h.frame hI i ⟨some s.cores.length, some ⟨a.block, none⟩, some p⟩ hother hget (fun _ _ => rfl) (Nat.le_refl _) (fun c k hk _ => getElem?_append_of hk) (by simp) (fun _ _ hp => hp) rfl rfl ?_ ?_ ?_ ?_, trivial, hother⟩
          · rintro b ⟨x, hx, hb'⟩
            have hx' : (s.objs.set i ⟨some s.cores.length, some ⟨a.block, none⟩, some p⟩)[i]? = some x := hx
            rw [hget] at hx'
            cases hx'
            left
            refine ⟨o, ho, Or.inl ⟨a, ha, ?_⟩⟩
            rcases hb' with ⟨a', ha', e⟩ | ⟨c, k, hc, hk, e⟩
            · cases ha'
              exact e
            · cases hc
              simp at hk
              rw [← e, ← hk]
          · intro c hc
            cases hc
            exact Or.inr (Nat.le_refl _)
          · refine ⟨fun a' c k ha' hc hk => ?_, fun a' q ha' hq => ?_, fun c k q hc hk hq => ?_⟩
            · cases ha'
              cases hc
              simp at hk
              rw [← hk]
            · cases ha'
              cases hq
            · cases hc
              simp at hk
              rw [← hk] at hq
              cases hq
          · exact fun x a' j hx ha' hj _ => (hno' x a' j hx ha' hj).elim
        · cases hr
          simp only [setObj, List.set_set, alloc]
          have hother : ∀ j, j ≠ i → (s.objs.set i ⟨some s.cores.length, some ⟨a.block, none⟩, some p⟩)[j]? = s.objs[j]? := fun j hj => by simp [List.getElem?_set_ne (Ne.symm hj)]
          have hget : (s.objs.set i ⟨some s.cores.length, some ⟨a.block, none⟩, some p⟩)[i]? = some ⟨some s.cores.length, some ⟨a.block, none⟩, some p⟩ := by simp [hi]
          refine ⟨h.frame hI i ⟨some s.cores.length, some ⟨a.block, none⟩, some p⟩ hother hget (fun b hb => List.getElem?_append_left hb) (by simp) (fun c k hk _ => getElem?_append_of hk) (by simp) (fun _ _ hp => hp) rfl rfl ?_ ?_ ?_ ?_, trivial, hother⟩
          · rintro b ⟨x, hx, hb'⟩
            have hx' : (s.objs.set i ⟨some s.cores.length, some ⟨a.block, none⟩, some p⟩)[i]? = some x := hx
            rw [hget] at hx'
            cases hx'
            rcases hb' with ⟨a', ha', e⟩ | ⟨c, k, hc, hk, e⟩
            · cases ha'
              exact Or.inl ⟨o, ho, Or.inl ⟨a, ha, e⟩⟩
            · cases hc
              simp at hk
              exact Or.inr (Nat.le_of_eq (by rw [← e, ← hk]))
          · intro c hc
            cases hc
            exact Or.inr (Nat.le_refl _)
          · refine ⟨fun a' c k ha' hc hk => ?_, fun a' q ha' hq => ?_, fun c k q hc hk hq => ?_⟩
            · cases ha'
              cases hc
              simp at hk
              rw [← hk]
              simp [List.getElem?_append_left hb]
            · cases ha'
              cases hq
            · cases hc
              simp at hk
              rw [← hk] at hq
              cases hq
          · exact fun x a' j hx ha' hj _ => (hno' x a' j hx ha' hj).elim
    · cases hr
      exact ⟨h, rfl, fun _ _ => rfl⟩

/-- Array `j` is the array of object `i`, which has a core. -/
def Att (s : State α P) (j i : Nat) : Prop := ∃ (o : Obj P) (a : Arr), s.held[j]? = some (some a) ∧ s.objs[i]? = some o ∧ o.saved = some a ∧ o.core ≠ none ∧ a.source ≠ none

theorem Att.of {s s' : State α P} {j i : Nat} (h : Att s j i) (h1 : ∀ a, s.held[j]? = some (some a) → s'.held[j]? = some (some a)) (h2 : ∀ o, s.objs[i]? = some o → s'.objs[i]? = some o) :
    Att s' j i := by
  obtain ⟨o, a, e1, e2, e3⟩ := h
  exact ⟨o, a, h1 a e1, h2 o e2, e3⟩

theorem Spec.Connecting.allowed {count : P → Nat} {s : State α P} {op : Op α P} (h : Spec.Connecting count s op) : Spec.Allowed count s op := by
  cases op with
  | share i => exact h.elim
  | setProps i p => exact h.1
  | modify i x =>
    cases x with
    | none => exact h
    | some x => trivial
  | _ => exact h

theorem construct_sync {count : P → Nat} {views : Bool} {s : State α P} (h : Sync s) (hI : Inv s) {p : P} {rows : List α} {r : Res α P} (hr : construct count views s p rows = some r) :
    Sync r.state ∧ ∀ j i, Att s j i → Att r.state j i := by
  unfold construct at hr
  simp only [Option.map_eq_some_iff] at hr
  obtain ⟨r', hr', rfl⟩ := hr
  have hA := h.alloc hI rows
  split
  · exact ⟨hA, fun j i ha => ha⟩
  · have h2 : Sync { alloc s rows with objs := (alloc s rows).objs ++ [⟨none, some ⟨s.mem.length, none⟩, some p⟩] } := by
      have hother : ∀ j, j ≠ s.objs.length → (s.objs ++ [(⟨none, some ⟨s.mem.length, none⟩, some p⟩ : Obj P)])[j]? = s.objs[j]? := by
        intro j hj
        by_cases hlt : j < s.objs.length
        · rw [List.getElem?_append_left hlt]
        · rw [List.getElem?_eq_none (by simp; omega), List.getElem?_eq_none (by omega)]
      have hget : (s.objs ++ [(⟨none, some ⟨s.mem.length, none⟩, some p⟩ : Obj P)])[s.objs.length]? = some ⟨none, some ⟨s.mem.length, none⟩, some p⟩ := by simp
      have hnone : s.objs[s.objs.length]? = none := List.getElem?_eq_none (Nat.le_refl _)
      refine h.frame hI s.objs.length ⟨none, some ⟨s.mem.length, none⟩, some p⟩ hother hget (fun b hb => by simp [alloc, List.getElem?_append_left hb]) (by simp [alloc]) (fun _ _ hk _ => hk) (Nat.le_refl _)
        (fun _ _ hp => hp) rfl rfl ?_ (by simp) ⟨by simp, ?_, by simp⟩ (by simp [hnone])
      · rintro b ⟨x, hx, hb⟩
        have hx' : (s.objs ++ [(⟨none, some ⟨s.mem.length, none⟩, some p⟩ : Obj P)])[s.objs.length]? = some x := hx
        rw [hget] at hx'
        cases hx'
        rcases hb with ⟨a, ha, e⟩ | ⟨c, k, hc, -⟩
        · cases ha
          exact Or.inr (Nat.le_of_eq e)
        · cases hc
      · intro a q ha hq
        cases ha
        cases hq
    have hI2 : Inv { alloc s rows with objs := (alloc s rows).objs ++ [⟨none, some ⟨s.mem.length, none⟩, some p⟩] } := by
      refine (hI.alloc rows).addObj (by simp) (fun a ha => ?_) (by simp)
      cases ha
      simp [alloc]
    have hno : Spec.NoArrays { alloc s rows with objs := (alloc s rows).objs ++ [⟨none, some ⟨s.mem.length, none⟩, some p⟩] } s.objs.length := by
      intro o a ho ha j a' hj e
      simp [alloc] at ho
      subst ho
      cases ha
      have := hI.heldBound (h.held j a' hj)
      simp only at e
      omega
    obtain ⟨hS, hh, ho⟩ := newCore_sync h2 hI2 hno hr'
    refine ⟨hS, fun j i ha => ha.of (fun a hj => by rw [hh]; exact hj) fun o hoi => ?_⟩
    have hlt := lt_of_get hoi
    rw [ho i (by omega)]
    exact getElem?_append_of hoi

theorem step_sync {count : P → Nat} {views : Bool} {s : State α P} (h : Sync s) (hI : Inv s) {op : Op α P} (hok : Spec.Connecting count s op) {r : Res α P} (hr : step count views s op = some r) :
    Sync r.state ∧ ∀ j i, ¬ Spec.Changes i op → ¬ Spec.Releases j op → Att s j i → Att r.state j i := by
  cases op with
  | new p rows => exact (construct_sync h hI hr).imp id fun h j i _ _ => h j i
  | setProps i p =>
    simp only [step, Option.bind_eq_some_iff] at hr
    obtain ⟨o, ho, s1, h1, hr⟩ := hr
    have hi := lt_of_get ho
    have hget := setObj_get (s := s) { o with props := some p } hi
    have hother : ∀ j, j ≠ i → (setObj s i { o with props := some p }).objs[j]? = s.objs[j]? := fun j hj => by simp [setObj, List.getElem?_set_ne (Ne.symm hj)]
    have hI0 : Inv (setObj s i { o with props := some p }) :=
      hI.setObj ho (fun c hc => hI.core i o c ho hc) (fun a ha => hI.saved i o a ho ha) (fun c k hc hk hw => hI.view i o c k ho hc hk hw) fun c hc => Or.inl hc
    have hg := h.good i o ho
    have hS0 : Sync (setObj s i { o with props := some p }) := by
      refine h.frame hI i _ hother hget (fun _ _ => rfl) (Nat.le_refl _) (fun _ _ hk _ => hk) (Nat.le_refl _) (fun _ _ hp => hp) rfl rfl ?_ (fun c hc => Or.inl ⟨o, ho, hc⟩)
        ⟨hg.same, hg.ptr, hg.cache⟩ fun x a j hx ha hj hsrc => ?_
      · rintro b ⟨x, hx, hb⟩
        rw [hget] at hx
        cases hx
        exact Or.inl ⟨o, ho, hb⟩
      · rw [ho] at hx
        cases hx
        exact Or.inl ⟨ha, hsrc⟩
    obtain ⟨hS1, eh, eo, x, y, hx, hy, ec, -, eb, -, -⟩ := prepare_sync hS0 hI0 h1
    have hI1 := (prepare_inv hI0 h1).1
    rw [hget] at hx
    cases hx
    have hno : Spec.NoArrays s1 i := by
      intro z a hz ha j a' hj e
      rw [hy] at hz
      cases hz
      rw [eh] at hj
      rcases eb a ha with ⟨a0, ha0, e0⟩ | hge
      · exact hok.2 o a0 ho ha0 j a' hj (e.trans e0)
      · have := hI.heldBound (h.held j a' hj)
        have hge' : s.mem.length ≤ a.block := hge
        omega
    obtain ⟨hS, hh, hother'⟩ := newCore_sync hS1 hI1 hno hr
    refine ⟨hS, fun j l hl _ ha => ha.of (fun a hj => by rw [hh, eh]; exact hj) fun z hz => ?_⟩
    have hne : l ≠ i := fun e => hl e.symm
    rw [hother' l hne, eo l hne, hother l hne]
    exact hz
  | setCps i rows =>
    simp only [step, Option.bind_eq_some_iff] at hr
    obtain ⟨o, ho, hr⟩ := hr
    obtain ⟨hn, hs⟩ := hok
    have hi := lt_of_get ho
    -- the object without its core, with the new array
    have key : ∀ p : Option P, Sync (setObj (alloc s rows) i ⟨none, some ⟨s.mem.length, none⟩, p⟩) ∧ Inv (setObj (alloc s rows) i ⟨none, some ⟨s.mem.length, none⟩, p⟩) ∧
        Spec.NoArrays (setObj (alloc s rows) i ⟨none, some ⟨s.mem.length, none⟩, p⟩) i := by
      intro p
      refine ⟨?_, ?_, ?_⟩
      · refine h.drop hI (o' := ⟨none, some ⟨s.mem.length, none⟩, p⟩) ho hs rfl (fun a ha => ?_) (fun b hb => by simp [setObj, alloc, List.getElem?_append_left hb]) (by simp [setObj, alloc]) rfl rfl rfl rfl rfl
        cases ha
        exact ⟨Nat.le_refl _, rfl⟩
      · refine (hI.alloc rows).setObj (o := o) ho (by simp) (fun a ha => ?_) (by simp) fun c hc => Or.inr (hs o c ho hc)
        cases ha
        simp [alloc]
      · intro x a hx ha j a' hj e
        rw [setObj_get _ (by simpa [alloc] using hi)] at hx
        cases hx
        cases ha
        have := hI.heldBound (h.held j a' hj)
        simp only at e
        omega
    have hfin : ∀ p, newCore count views (setObj (alloc s rows) i ⟨none, some ⟨s.mem.length, none⟩, p⟩) i = some r →
        Sync r.state ∧ ∀ j l, ¬ Spec.Changes l (.setCps i rows : Op α P) → ¬ Spec.Releases j (.setCps i rows : Op α P) → Att s j l → Att r.state j l := by
      intro p hr
      obtain ⟨k1, k2, k3⟩ := key p
      obtain ⟨hS, hh, hother'⟩ := newCore_sync k1 k2 k3 hr
      refine ⟨hS, fun j l hl _ ha => ha.of (fun a hj => by rw [hh]; exact hj) fun z hz => ?_⟩
      have hne : l ≠ i := fun e => hl e.symm
      rw [hother' l hne]
      simp [setObj, alloc, List.getElem?_set_ne (Ne.symm hne), hz]
    cases hp : o.props.or ((o.core.bind fun c => s.cores[c]?).map Core.props) with
    | none =>
      have hcn : o.core = none := by
        cases hc : o.core with
        | none => rfl
        | some c =>
          have hk := List.getElem?_eq_getElem (hI.core i o c ho hc)
          rw [hc, Option.bind_some, hk] at hp
          cases h' : o.props <;> rw [h'] at hp <;> cases hp
      rw [hcn] at hr
      exact hfin _ hr
    | some p =>
      have hlen : rows.length = count p := hn _ (by unfold Spec.needed; rw [ho, Option.bind_some, hp]; rfl)
      refine hfin (some p) ?_
      rw [← hr]
      have hp' : o.props.or ((o.core.bind fun c => (setObj (alloc s rows) i { o with saved := some ⟨s.mem.length, none⟩ }).cores[c]?).map Core.props) = some p := hp
      unfold newCore
      rw [setObj_get _ (by simpa [alloc] using hi), setObj_get _ (by simpa [alloc] using hi)]
      simp only [hp', Option.some_or]
      have hm : ∀ x, (setObj (alloc s rows) i x).mem[s.mem.length]? = some rows := fun x => by simp [setObj, alloc]
      rw [hm, hm]
      simp only [hlen, ne_eq, not_true_eq_false, if_false]
      simp [setObj, alloc]
  | clear i =>
    simp only [step, Option.map_eq_some_iff] at hr
    obtain ⟨o, ho, rfl⟩ := hr
    refine ⟨h.drop hI (o' := ⟨none, none, none⟩) ho hok rfl (by simp) (fun _ _ => rfl) (Nat.le_refl _) rfl rfl rfl rfl rfl, fun j l hl _ ha => ha.of (fun a hj => hj) fun z hz => ?_⟩
    simp [setObj, List.getElem?_set_ne (fun e : i = l => hl e), hz]
  | read i =>
    simp only [step, Option.bind_eq_some_iff, Option.map_eq_some_iff] at hr
    obtain ⟨s1, h1, o1, ho1, rfl⟩ := hr
    obtain ⟨hS1, eh, eo, x, y, hx, hy, ec, hsrc, -, hkeep, -⟩ := prepare_sync h hI h1
    rw [hy, Option.some_inj] at ho1
    subst ho1
    refine ⟨⟨fun l o ho => ?_, hS1.owns, hS1.cores, fun j a hj => ?_⟩, fun j l _ _ ha => ?_⟩
    · have := hS1.good l o ho
      exact ⟨this.same, this.ptr, this.cache⟩
    · have hd : ∀ a, Held s1 a → Held { s1 with held := s1.held ++ [y.saved] } a := by
        rintro a (h | h)
        · exact Or.inl h
        · exact Or.inr ⟨h.bound, h.free, h.ptr⟩
      rcases getElem?_append' hj with hj | ⟨-, e⟩
      · exact hd a (hS1.held j a hj)
      · refine Or.inl ⟨i, y, hy, e.symm, fun hc => ?_⟩
        obtain ⟨a', ha', hs'⟩ := hsrc (by rw [← ec]; exact hc)
        rw [ha'] at e
        cases e
        exact hs'
    · obtain ⟨o, a, e1, e2, e3, e4, e5⟩ := ha
      by_cases hl : l = i
      · rw [hl, hx] at e2
        cases e2
        rw [hl]
        exact ⟨y, a, getElem?_append_of (by rw [eh]; exact e1), hy, hkeep a e3 fun _ => e5, by rw [ec]; exact e4, e5⟩
      · exact ⟨o, a, getElem?_append_of (by rw [eh]; exact e1), by rw [← eo l hl] at e2; exact e2, e3, e4, e5⟩
  | release j =>
    simp only [step] at hr
    cases hr
    refine ⟨⟨fun l o ho => ?_, h.owns, h.cores, fun l a hl => ?_⟩, fun l i _ hl ha => ?_⟩
    · have := h.good l o ho
      exact ⟨this.same, this.ptr, this.cache⟩
    · obtain ⟨-, e⟩ | ⟨-, hl⟩ := getElem?_set' hl
      · cases e
      · rcases h.held l a hl with h | h
        · exact Or.inl h
        · exact Or.inr ⟨h.bound, h.free, h.ptr⟩
    · refine ha.of (fun a hj => ?_) fun o ho => ho
      have : j ≠ l := fun e => hl e
      simp [List.getElem?_set_ne this, hj]
  | write j row v =>
    have hj : ∃ a, s.held[j]? = some (some a) := by
      simp only [step, Option.bind_eq_some_iff, id_eq] at hr
      obtain ⟨a, ⟨b, hb, rfl⟩, -⟩ := hr
      exact ⟨a, hb⟩
    obtain ⟨a, ha⟩ := hj
    obtain ⟨s', raised, e, hS, -, e2, e3, -⟩ := write_step (count := count) (views := views) h hI ha row v
    rw [e] at hr
    cases hr
    exact ⟨hS, fun l i _ _ ha => ha.of (fun a hj => by rw [e3]; exact hj) fun o ho => by rw [e2]; exact ho⟩
  | modify i result =>
    cases result with
    | none => exact hok.elim
    | some x =>
      obtain ⟨p, rows⟩ := x
      obtain ⟨hno, hcount⟩ := hok
      simp only [step, Option.bind_eq_some_iff] at hr
      obtain ⟨o, ho, hr⟩ := hr
      have hi := lt_of_get ho
      cases hc : o.core with
      | none =>
        rw [hc] at hr
        cases hr
        exact ⟨h, fun _ _ _ _ ha => ha⟩
      | some c =>
        rw [hc] at hr
        simp only [Option.bind_eq_some_iff, Option.map_eq_some_iff] at hr
        obtain ⟨k, hk, -, -, rfl⟩ := hr
        have hclt := lt_of_get hk
        have hother : ∀ j, j ≠ i → (s.objs.set i ⟨some c, none, none⟩)[j]? = s.objs[j]? := fun j hj => by simp [List.getElem?_set_ne (Ne.symm hj)]
        have hget : (s.objs.set i ⟨some c, none, none⟩)[i]? = some ⟨some c, none, none⟩ := by simp [hi]
        have hkget : (s.cores.set c ⟨s.mem.length, true, p, k.pointers⟩)[c]? = some ⟨s.mem.length, true, p, k.pointers⟩ := by simp [hclt]
        refine ⟨h.frame hI i ⟨some c, none, none⟩ hother hget (fun b hb => by simp [setObj, alloc, List.getElem?_append_left hb]) (by simp [setObj, alloc]) ?_ (by simp [setObj, alloc]) (fun _ _ hp => hp) rfl rfl ?_ ?_ ?_ ?_,
          fun j l hl _ ha => ha.of (fun a hj => hj) fun z hz => ?_⟩
        · intro d k' hd hne
          have : c ≠ d := fun e => hne o ho (by rw [hc, e])
          simp [setObj, alloc, List.getElem?_set_ne this, hd]
        · rintro b ⟨x, hx, hb⟩
          have hx' : (s.objs.set i ⟨some c, none, none⟩)[i]? = some x := hx
          rw [hget] at hx'
          cases hx'
          rcases hb with ⟨a, ha, -⟩ | ⟨c', k', hc', hk', e⟩
          · cases ha
          · cases hc'
            have hk'' : (s.cores.set c ⟨s.mem.length, true, p, k.pointers⟩)[c]? = some k' := hk'
            rw [hkget] at hk''
            cases hk''
            exact Or.inr (Nat.le_of_eq e)
        · intro d hd
          cases hd
          exact Or.inl ⟨o, ho, hc⟩
        · refine ⟨by simp, by simp, fun c' k' q hc' hk' hq => ?_⟩
          cases hc'
          have hk'' : (s.cores.set c ⟨s.mem.length, true, p, k.pointers⟩)[c]? = some k' := hk'
          rw [hkget] at hk''
          cases hk''
          obtain ⟨p', h1, -⟩ := (h.good i o ho).cache c k q hc hk hq
          refine ⟨p', h1, fun e => absurd ?_ (hcount o c k q p' ho hc hk hq h1)⟩
          simpa [setObj, alloc] using e
        · exact fun x a j hx ha hj _ => (hno x a hx ha j a hj rfl).elim
        · simp [setObj, alloc, List.getElem?_set_ne (fun e : i = l => hl e), hz]
  | share i => exact hok.elim
  | copy i =>
    simp only [step, Option.bind_eq_some_iff] at hr
    obtain ⟨o, ho, hr⟩ := hr
    cases hc : o.core with
    | none =>
      rw [hc] at hr
      cases hr
      exact ⟨h, fun _ _ _ _ ha => ha⟩
    | some c =>
      rw [hc] at hr
      simp only [Option.bind_eq_some_iff] at hr
      obtain ⟨k, -, rows, -, hr⟩ := hr
      exact (construct_sync h hI hr).imp id fun h j i _ _ => h j i
  | multi is =>
    simp only [step] at hr
    split at hr
    · cases hr
      exact ⟨h, fun _ _ _ _ ha => ha⟩
    · rename_i cs hcs
      cases hr
      refine ⟨⟨fun l o ho => ?_, h.owns, h.cores, fun l a hl => ?_⟩, fun _ _ _ _ ha => ha⟩
      · have := h.good l o ho
        exact ⟨this.same, this.ptr, this.cache⟩
      · rcases h.held l a hl with h | h
        · exact Or.inl h
        · refine Or.inr ⟨h.bound, h.free, fun q hq => ?_⟩
          obtain ⟨p, h1, h2, h3, h4⟩ := h.ptr q hq
          refine ⟨p, h1, h2, ?_, h4⟩
          by_contra hne
          rw [Bool.not_eq_false] at hne
          have : s.referenced p.core = true := by
            rcases referenced_iff.1 hne with h | ⟨m, hm, hmc⟩
            · exact referenced_iff.2 (Or.inl h)
            · rw [List.mem_append, List.mem_singleton] at hm
              rcases hm with hm | rfl
              · exact referenced_iff.2 (Or.inr ⟨m, hm, hmc⟩)
              · exact referenced_iff.2 (Or.inl (cores_of_objs is _ hcs _ hmc))
          rw [this] at h3
          cases h3
  | evaluate i =>
    simp only [step, Option.bind_eq_some_iff] at hr
    obtain ⟨o, ho, hr⟩ := hr
    cases hc : o.core with
    | none =>
      rw [hc] at hr
      cases hr
      exact ⟨h, fun _ _ _ _ ha => ha⟩
    | some c =>
      rw [hc] at hr
      simp only [Option.map_eq_some_iff] at hr
      obtain ⟨-, -, rfl⟩ := hr
      exact ⟨h, fun _ _ _ _ ha => ha⟩
  | evaluateMulti m =>
    simp only [step, Option.bind_eq_some_iff, Option.map_eq_some_iff] at hr
    obtain ⟨-, -, -, -, rfl⟩ := hr
    exact ⟨h, fun _ _ _ _ ha => ha⟩

theorem run_sync {count : P → Nat} {views : Bool} : ∀ {ops : List (Op α P)} {s s' : State α P}, Sync s → Inv s → Spec.AllConnecting count views s ops → run count views s ops = some s' →
    Sync s' ∧ Inv s' ∧ ∀ j i, (∀ op ∈ ops, ¬ Spec.Changes i op ∧ ¬ Spec.Releases j op) → Att s j i → Att s' j i
  | [], s, s', h, hI, _, hr => by
    cases hr
    exact ⟨h, hI, fun _ _ _ ha => ha⟩
  | op :: ops, s, s', h, hI, hok, hr => by
    unfold run at hr
    rw [List.foldlM_cons] at hr
    simp only [Option.bind_eq_bind, Option.bind_eq_some_iff, Option.map_eq_some_iff] at hr
    obtain ⟨s1, ⟨r, hr1, rfl⟩, hr2⟩ := hr
    obtain ⟨hS, ha⟩ := step_sync h hI hok.1 hr1
    obtain ⟨hS', hI', ha'⟩ := run_sync hS (step_inv hI hok.1.allowed hr1) (hok.2 r hr1) hr2
    exact ⟨hS', hI', fun j i hno h0 => ha' j i (fun op hop => hno op (List.mem_cons_of_mem _ hop)) (ha j i (hno op List.mem_cons_self).1 (hno op List.mem_cons_self).2 h0)⟩

theorem Inv.evaluated {s : State α P} (h : Inv s) {i : Nat} {o : Obj P} {c : Nat} {k : Core P} (ho : s.objs[i]? = some o) (hc : o.core = some c) (hk : s.cores[c]? = some k) :
    evaluated s i = s.mem[k.block]? := by
  obtain ⟨k', rows, hk', hl, hm⟩ := h.load ho hc
  rw [hk] at hk'
  cases hk'
  unfold Lifetime.evaluated
  rw [ho, Option.bind_some, hc, Option.bind_some, hl, hm]

/-! ### the property -/

/-- C118: the array read from a spline shows the control points the spline is evaluated with, as long as the spline is not assigned to, cleared or refined; assigning to a row
of the array changes that control point of the spline, and no other spline. For histories as described above. -/
theorem write_reaches_partial (count : P → Nat) (views : Bool) (ops ops' : List (Op α P)) (s s1 s2 : State α P) (i : Nat) (raised : Bool) (hok : Spec.AllConnecting count views {} ops)
    (hr : run count views {} ops = some s) (hi : evaluated s i ≠ none) (hread : step count views s (.read i) = some ⟨s1, raised⟩) (hok' : Spec.AllConnecting count views s1 ops')
    (hno : ∀ op ∈ ops', ¬ Spec.Changes i op ∧ ¬ Spec.Releases s.held.length op) (hr' : run count views s1 ops' = some s2) :
    evaluated s1 i = evaluated s i ∧ shown s2 s.held.length = evaluated s2 i ∧
    ∀ rows row v, evaluated s2 i = some rows → row < rows.length → ∃ s3, step count views s2 (.write s.held.length row v) = some ⟨s3, false⟩ ∧ evaluated s3 i = some (rows.set row v) ∧
      shown s3 s.held.length = some (rows.set row v) ∧ ∀ i', i' ≠ i → evaluated s3 i' = evaluated s2 i' := by
  obtain ⟨hS, hI, -⟩ := run_sync sync_empty inv_empty hok hr
  have hI1 := step_inv hI (op := .read i) trivial hread
  have hS1 := (step_sync hS hI (op := .read i) trivial hread).1
  have hatt : Att s1 s.held.length i ∧ evaluated s1 i = evaluated s i := by
    simp only [step, Option.bind_eq_some_iff, Option.map_eq_some_iff] at hread
    obtain ⟨t, h1, y', hy', e⟩ := hread
    obtain ⟨-, eh, -, x, y, hx, hy, ec, hsrc, -, -, hev⟩ := prepare_sync hS hI h1
    rw [hy, Option.some_inj] at hy'
    subst hy'
    cases e
    have hxc : x.core ≠ none := by
      intro e
      apply hi
      unfold evaluated
      rw [hx, Option.bind_some, e]
      rfl
    obtain ⟨a, ha, hs⟩ := hsrc hxc
    refine ⟨⟨y, a, ?_, hy, ha, by rw [ec]; exact hxc, hs⟩, ?_⟩
    · simp [eh, ha]
    · obtain ⟨c, hc⟩ := Option.ne_none_iff_exists'.1 hxc
      have hk := List.getElem?_eq_getElem (hI.core i x c hx hc)
      obtain ⟨k', hk', em⟩ := hev c _ hc hk
      rw [hI.evaluated hx hc hk]
      exact (hI1.evaluated (k := k') hy (by rw [ec]; exact hc) hk').trans em
  obtain ⟨hS2, hI2, hk2⟩ := run_sync hS1 hI1 hok' hr'
  obtain ⟨o, a, hj, ho, ha, hc, hsrc⟩ := hk2 _ i hno hatt.1
  obtain ⟨c, hc⟩ := Option.ne_none_iff_exists'.1 hc
  have hk := List.getElem?_eq_getElem (hI2.core i o c ho hc)
  generalize s2.cores[c]'(hI2.core i o c ho hc) = k at hk
  have hev := hI2.evaluated ho hc hk
  have hsame := (hS2.good i o ho).same a c k ha hc hk
  have hshown : ∀ t : State α P, t.held = s2.held → shown t s.held.length = t.mem[a.block]? := by
    intro t e
    unfold shown
    rw [e, hj]
    rfl
  refine ⟨hatt.2, by rw [hev, hshown s2 rfl, hsame], fun rows row v hrows hrow => ?_⟩
  rw [hev] at hrows
  obtain ⟨s3, raised, e, hS3, e1, e2, e3, e4, e5, -, hraise, hset, hkeep⟩ := write_step (count := count) (views := views) hS2 hI2 hj row v
  have hf := (hraise rows (by rw [hsame]; exact hrows)).2 hrow
  subst hf
  have hI3 := step_inv hI2 (op := .write _ row v) trivial e
  refine ⟨s3, e, ?_, ?_, fun i' hne => ?_⟩
  · rw [hI3.evaluated (by rw [e2]; exact ho) hc (by rw [e1]; exact hk), hset rfl k.block (Or.inl ⟨i, o, c, k, ho, ha, hc, hk, rfl⟩), hrows]
    rfl
  · rw [hshown s3 e3, hset rfl a.block (Or.inr rfl), hsame, hrows]
    rfl
  · cases ho' : s2.objs[i']? with
    | none =>
      unfold evaluated
      rw [e2, ho']
      rfl
    | some x =>
      cases hc' : x.core with
      | none =>
        unfold evaluated
        rw [e2, ho', Option.bind_some, hc']
        rfl
      | some d =>
        have hd := List.getElem?_eq_getElem (hI2.core i' x d ho' hc')
        generalize s2.cores[d]'(hI2.core i' x d ho' hc') = k' at hd
        rw [hI2.evaluated ho' hc' hd, hI3.evaluated (by rw [e2]; exact ho') hc' (by rw [e1]; exact hd)]
        have hown : Owns s2 k'.block i' := ⟨x, ho', Or.inr ⟨d, k', hc', hd, rfl⟩⟩
        refine hkeep _ (fun e => hne (hS2.owns _ i' i hown ⟨o, ho, Or.inl ⟨a, ha, e.symm⟩⟩)) fun l y d' k'' hy hys hyd hk'' e => ?_
        have hl : l = i := hS2.owns a.block l i ⟨y, hy, Or.inl ⟨a, hys, rfl⟩⟩ ⟨o, ho, Or.inl ⟨a, ha, rfl⟩⟩
        exact hne (hS2.owns _ i' i hown (hl ▸ ⟨y, hy, Or.inr ⟨d', k'', hyd, hk'', e⟩⟩))

/-- In the same histories, assigning to any array the user has never writes to freed memory. -/
theorem write_defined_partial (count : P → Nat) (views : Bool) (ops : List (Op α P)) (s : State α P) (hok : Spec.AllConnecting count views {} ops) (hr : run count views {} ops = some s)
    (j row : Nat) (v : α) (hj : shown s j ≠ none) : step count views s (.write j row v) ≠ none := by
  obtain ⟨hS, hI, -⟩ := run_sync sync_empty inv_empty hok hr
  unfold shown at hj
  cases h : (s.held[j]?).bind id with
  | none =>
    rw [h] at hj
    exact absurd rfl hj
  | some a =>
    simp only [Option.bind_eq_some_iff, id_eq] at h
    obtain ⟨b, hb, rfl⟩ := h
    obtain ⟨s', raised, e, -⟩ := write_step (count := count) (views := views) hS hI hb row v
    rw [e]
    simp

/-- Two B-splines; the first one is refined, then its array is read; the other is copied. -/
example : ∃ s s1 s2 s3 : State Nat Nat, Spec.AllConnecting id true ({} : State Nat Nat) [.new 2 [0, 1], .new 2 [5, 6], .modify 0 (some (3, [0, 7, 1]))] ∧
    run id true ({} : State Nat Nat) [.new 2 [0, 1], .new 2 [5, 6], .modify 0 (some (3, [0, 7, 1]))] = some s ∧ evaluated s 0 = some [0, 7, 1] ∧ step id true s (.read 0) = some ⟨s1, false⟩ ∧
    Spec.AllConnecting id true s1 [.copy 1, .write 0 2 9] ∧ run id true s1 [.copy 1, .write 0 2 9] = some s2 ∧ shown s2 0 = some [0, 7, 9] ∧ step id true s2 (.write 0 0 3) = some ⟨s3, false⟩ ∧
    evaluated s3 0 = some [3, 7, 9] ∧ evaluated s3 1 = some [5, 6] := by
  refine ⟨_, _, _, _, ?_, rfl, by decide, rfl, ?_, rfl, by decide, rfl, by decide, by decide⟩
  · refine ⟨trivial, fun r hr => ?_⟩
    cases hr
    refine ⟨trivial, fun r hr => ?_⟩
    cases hr
    refine ⟨⟨fun o a _ _ j a' hj => ?_, fun o c k q p ho hc hk hq => ?_⟩, fun r hr => trivial⟩
    · cases hj
    · cases ho
      cases hc
      cases hk
      cases hq
  · exact ⟨trivial, fun r hr => ⟨trivial, fun r hr => trivial⟩⟩

/-! ### the excluded histories -/

/-- An array of a B-spline that is kept while the spline is refined: assigning to it no longer changes the spline. -/
theorem array_kept_over_refinement_violates (count : P → Nat) (p p' : P) (rows rows' : List α) (row : Nat) (v : α) (h : rows.length = count p) (hrow : row < rows.length) :
    ∃ s s', run count true {} [.new p rows, .read 0, .modify 0 (some (p', rows'))] = some s ∧ step count true s (.write 0 row v) = some ⟨s', false⟩ ∧ evaluated s' 0 = some rows' ∧
      evaluated s 0 = some rows' ∧ shown s' 0 = some (rows.set row v) := by
  refine ⟨⟨[rows, rows'], [⟨1, true, p', some 0⟩], [⟨0, 0, rows.length⟩], [⟨some 0, none, none⟩], [some ⟨0, some 0⟩], []⟩,
    ⟨[rows.set row v, rows'], [⟨1, true, p', some 0⟩], [⟨0, 0, rows.length⟩], [⟨some 0, none, none⟩], [some ⟨0, some 0⟩], []⟩, ?_, ?_, ?_, ?_, ?_⟩
  · simp [run, step, construct, newCore, alloc, setObj, h, prepare, corePointers, State.loadCore, State.load, State.alive]
  · have : ¬ rows.length ≤ row := by omega
    simp [step, this, State.referenced, State.alive, store]
  · simp [evaluated, State.loadCore, State.load, State.alive, State.referenced]
  · simp [evaluated, State.loadCore, State.load, State.alive, State.referenced]
  · simp [shown]

/-- The same with a Bezier spline: assigning to the array writes to freed memory. -/
theorem bezier_array_kept_over_refinement_violates (count : P → Nat) (p p' : P) (rows rows' : List α) (row : Nat) (v : α) (h : rows.length = count p) (hrow : row < rows.length) :
    ∃ s, run count false {} [.new p rows, .read 0, .modify 0 (some (p', rows'))] = some s ∧ shown s 0 = some rows ∧ step count false s (.write 0 row v) = none := by
  refine ⟨⟨[rows, rows, rows'], [⟨2, true, p', some 0⟩], [⟨0, 1, rows.length⟩], [⟨some 0, none, none⟩], [some ⟨0, some 0⟩], []⟩, ?_, ?_, ?_⟩
  · simp [run, step, construct, newCore, alloc, setObj, h, prepare, corePointers, State.loadCore, State.load, State.alive, State.referenced]
  · simp [shown]
  · have : ¬ rows.length ≤ row := by omega
    simp [step, this, State.referenced, State.alive]

/-- Refining and coming back to the number of control points the last array had: assigning to the array that is read then writes to freed memory, although all arrays had been released. -/
theorem same_count_violates (count : P → Nat) (p p' : P) (rows mid rows' : List α) (row : Nat) (v : α) (h : rows.length = count p) (h' : rows'.length = rows.length) (hrow : row < rows.length) :
    ∃ s, run count true {} [.new p rows, .read 0, .release 0, .modify 0 (some (p', mid)), .modify 0 (some (p, rows')), .read 0] = some s ∧ evaluated s 0 = some rows' ∧ shown s 1 = some rows' ∧
      step count true s (.write 1 row v) = none := by
  refine ⟨⟨[rows, mid, rows', rows'], [⟨2, true, p, some 0⟩], [⟨0, 0, rows.length⟩], [⟨some 0, some ⟨3, some 0⟩, none⟩], [none, some ⟨3, some 0⟩], []⟩, ?_, ?_, ?_, ?_⟩
  · simp [run, step, construct, newCore, alloc, setObj, h, h', prepare, corePointers, State.loadCore, State.load, State.alive, State.referenced]
  · simp [evaluated, State.loadCore, State.load, State.alive, State.referenced]
  · simp [shown]
  · have : ¬ rows'.length ≤ row := by omega
    simp [step, this, State.referenced, State.alive]

/-- Two splines that share their core: assigning to the array of one changes what the other is evaluated with, but not the array of the other. -/
theorem shared_core_violates (count : P → Nat) (p p' : P) (rows rows' : List α) (row : Nat) (v : α) (h : rows.length = count p) (hrow : row < rows'.length) :
    ∃ s s', run count true {} [.new p rows, .modify 0 (some (p', rows')), .share 0, .read 0, .read 1] = some s ∧ step count true s (.write 0 row v) = some ⟨s', false⟩ ∧
      evaluated s' 1 = some (rows'.set row v) ∧ shown s' 1 = some rows' := by
  refine ⟨⟨[rows, rows', rows', rows'], [⟨1, true, p', some 0⟩], [⟨0, 1, rows'.length⟩], [⟨some 0, some ⟨2, some 0⟩, none⟩, ⟨some 0, some ⟨3, some 0⟩, none⟩], [some ⟨2, some 0⟩, some ⟨3, some 0⟩], []⟩,
    ⟨[rows, rows'.set row v, rows'.set row v, rows'], [⟨1, true, p', some 0⟩], [⟨0, 1, rows'.length⟩], [⟨some 0, some ⟨2, some 0⟩, none⟩, ⟨some 0, some ⟨3, some 0⟩, none⟩],
      [some ⟨2, some 0⟩, some ⟨3, some 0⟩], []⟩, ?_, ?_, ?_, ?_⟩
  · simp [run, step, construct, newCore, alloc, setObj, h, prepare, corePointers, State.loadCore, State.load, State.alive, State.referenced]
  · have : ¬ rows'.length ≤ row := by omega
    simp [step, this, State.referenced, State.alive, store]
  · simp [evaluated, State.loadCore, State.load, State.alive, State.referenced]
  · simp [shown]

/-- An array of a Bezier spline that is kept while another property is assigned: it shows the assigned value, as does the spline's own array, but the spline is evaluated with the old one. -/
theorem bezier_array_kept_over_assignment_violates (count : P → Nat) (p p' : P) (rows : List α) (row : Nat) (v : α) (h : rows.length = count p) (h' : rows.length = count p') (hrow : row < rows.length) :
    ∃ s s' s'', run count false {} [.new p rows, .read 0, .setProps 0 p'] = some s ∧ step count false s (.write 0 row v) = some ⟨s', false⟩ ∧ step count false s' (.read 0) = some ⟨s'', false⟩ ∧
      evaluated s'' 0 = some rows ∧ shown s'' 0 = some (rows.set row v) ∧ shown s'' 1 = some (rows.set row v) := by
  refine ⟨⟨[rows, rows, rows], [⟨1, true, p, some 0⟩, ⟨2, true, p', none⟩], [⟨0, 1, rows.length⟩], [⟨some 1, some ⟨0, none⟩, some p'⟩], [some ⟨0, some 0⟩], []⟩,
    ⟨[rows.set row v, rows, rows], [⟨1, true, p, some 0⟩, ⟨2, true, p', none⟩], [⟨0, 1, rows.length⟩], [⟨some 1, some ⟨0, none⟩, some p'⟩], [some ⟨0, some 0⟩], []⟩,
    ⟨[rows.set row v, rows, rows], [⟨1, true, p, some 0⟩, ⟨2, true, p', some 1⟩], [⟨0, 1, rows.length⟩, ⟨1, 2, rows.length⟩], [⟨some 1, some ⟨0, some 1⟩, some p'⟩],
      [some ⟨0, some 0⟩, some ⟨0, some 1⟩], []⟩, ?_, ?_, ?_, ?_, ?_, ?_⟩
  · simp [run, step, construct, newCore, alloc, setObj, h, prepare, corePointers, State.loadCore, State.load, State.alive, State.referenced]
    rw [if_pos (by omega)]
    exact ⟨_, rfl, rfl⟩
  · have : ¬ rows.length ≤ row := by omega
    simp [step, this, State.referenced, State.alive, store]
  · simp [step, setObj, prepare, corePointers]
  · simp [evaluated, State.loadCore, State.load, State.alive, State.referenced, List.range, List.range.loop]
  · simp [shown]
  · simp [shown]

end Splinepy.Lifetime
