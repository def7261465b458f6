import Verif.Model.RationalArrays
import Mathlib.Tactic.Ring
import Mathlib.Tactic.FieldSimp

/-! C138: the arrays `control_points` and `weights` of a rational spline. -/

namespace Splinepy.RationalArrays

variable {K P : Type} [Field K]

/-! ### Specification -/

/-- The spline is evaluated with exactly these control points and weights: the homogeneous coordinates of its core are the control points times the weights, and the weights. -/
def Spec.EvaluatedWith (s : State K P) (cps : List (List K)) (ws : List K) : Prop :=
  cps.length = ws.length ∧ s.coordinates = some (List.zipWith (fun p w => (p.map (· * w), w)) cps ws)

/-- The user has no array of the spline. -/
def Spec.NoArrays (s : State K P) : Prop := (∀ a ∈ s.heldC, a = none) ∧ ∀ a ∈ s.heldW, a = none

/-- The number of control points differs from the number they had when the last array was read. -/
def Spec.NewCount (s : State K P) (n : ℕ) : Prop := ∀ k q p, s.current = some k → k.pointers = some q → s.pointers[q]? = some p → p.len ≠ n

/-- Calls the theorems allow: consistent numbers, nonzero weights, arrays released before degrees or knots are assigned and before the spline is refined, and no refinement back to the number of
control points of an earlier array. Only arrays the user has are written to. (Control points and weights can be assigned at any time.) -/
def Spec.Connecting (count : P → ℕ) (s : State K P) : Op K P → Prop
  | .new p cps ws => cps.length = count p ∧ ws.length = cps.length ∧ ∀ w ∈ ws, w ≠ 0
  | .setProps p => Spec.NoArrays s ∧ ∀ rows, s.coordinates = some rows → rows.length = count p
  | .setCps cps => ∃ rows, s.coordinates = some rows ∧ cps.length = rows.length
  | .setWs ws => (∀ w ∈ ws, w ≠ 0) ∧ ∃ rows, s.coordinates = some rows ∧ ws.length = rows.length
  | .writeC j _ _ => shownC s j ≠ none
  | .writeW j _ v => shownW s j ≠ none ∧ v ≠ 0
  | .refine none => Spec.NoArrays s
  | .refine (some (p, cps, ws)) => Spec.NoArrays s ∧ cps.length = count p ∧ ws.length = cps.length ∧ (∀ w ∈ ws, w ≠ 0) ∧ Spec.NewCount s cps.length
  | _ => True

/-- Every call of a history is, in the state it meets. -/
def Spec.AllConnecting (count : P → ℕ) : State K P → List (Op K P) → Prop
  | _, [] => True
  | s, op :: ops => Spec.Connecting count s op ∧ ∀ r, step count s op = some r → Spec.AllConnecting count r.state ops

/-- The call makes, assigns to or refines the spline. -/
def Spec.Changes : Op K P → Prop
  | .new .. | .setProps _ | .setCps _ | .setWs _ | .refine _ => True
  | _ => False

/-- The call releases the array `j` of control points. -/
def Spec.ReleasesC (j : ℕ) : Op K P → Prop
  | .releaseC k => k = j
  | _ => False

/-- The call releases the array `j` of weights. -/
def Spec.ReleasesW (j : ℕ) : Op K P → Prop
  | .releaseW k => k = j
  | _ => False

/-! ### Arithmetic -/

theorem project_weigh (p : List K) {w : K} (hw : w ≠ 0) : project (weigh p w) = p := by
  simp only [project, weigh, List.map_map]
  conv_rhs => rw [← List.map_id p]
  exact List.map_congr_left fun x _ => by simp [hw]

theorem map_project {cps : List (List K)} {ws : List K} (hl : cps.length = ws.length) (hw : ∀ w ∈ ws, w ≠ 0) : (List.zipWith weigh cps ws).map project = cps := by
  refine List.ext_getElem (by simp [hl]) fun i h1 h2 => ?_
  simp only [List.getElem_map, List.getElem_zipWith]
  exact project_weigh _ (hw _ (List.getElem_mem _))

theorem map_snd {cps : List (List K)} {ws : List K} (hl : cps.length = ws.length) : (List.zipWith weigh cps ws).map Prod.snd = ws := by
  refine List.ext_getElem (by simp [hl]) fun i h1 h2 => ?_
  simp [weigh]

theorem storeC_weigh {cps : List (List K)} {ws : List K} (row : ℕ) (v : List K) : storeC (List.zipWith weigh cps ws) row v = List.zipWith weigh (cps.set row v) ws := by
  refine List.ext_getElem? fun i => ?_
  simp only [storeC, List.getElem?_modify, List.getElem?_zipWith, List.getElem?_set]
  by_cases e : row = i
  · subst e
    by_cases h : row < cps.length
    · simp only [↓reduceIte, h, List.getElem?_eq_getElem h]
      cases ws[row]? <;> simp [weigh]
    · simp [h]
  · simp only [if_neg e]
    cases cps[i]? <;> cases ws[i]? <;> simp

theorem foldl_storeW (ws : List K) : ∀ (l : List ℕ) (_ : l.Nodup) (rows : List (Row K)) (j : ℕ), (l.foldl (fun rows i => storeW rows i (ws.getD i 0)) rows)[j]? =
    (rows[j]?).map fun r => if j ∈ l then (r.1.map (· * (ws.getD j 0 / r.2)), ws.getD j 0) else r
  | [], _, rows, j => by simp
  | i :: l, h, rows, j => by
      rw [List.nodup_cons] at h
      rw [List.foldl_cons, foldl_storeW ws l h.2, storeW, List.getElem?_modify]
      by_cases e : i = j
      · subst e
        cases rows[i]? <;> simp [h.1]
      · cases rows[j]? <;> simp [e, Ne.symm e]

theorem syncW_weigh {cps : List (List K)} {ws ws' : List K} (hl : cps.length = ws.length) (hl' : ws'.length = ws.length) (hw : ∀ w ∈ ws, w ≠ 0) :
    syncW (List.zipWith weigh cps ws) ws' = List.zipWith weigh cps ws' := by
  refine List.ext_getElem? fun j => ?_
  rw [syncW, foldl_storeW ws' _ List.nodup_range]
  by_cases h : j < ws.length
  · have hc : j < cps.length := by omega
    have hw' : j < ws'.length := by omega
    simp only [List.getElem?_zipWith, List.getElem?_eq_getElem h, List.getElem?_eq_getElem hc, List.getElem?_eq_getElem hw', List.mem_range, hw', List.getD_eq_getElem?_getD,
      Option.map_some, Option.getD_some, ↓reduceIte, weigh, List.map_map, Option.some.injEq, Prod.mk.injEq, and_true]
    refine List.map_congr_left fun x _ => ?_
    have : ws[j] ≠ 0 := hw _ (List.getElem_mem _)
    simp only [Function.comp]
    field_simp
  · rw [List.getElem?_eq_none (by simp; omega), List.getElem?_eq_none (by simp; omega)]
    rfl

/-! ### Invariant -/

/-- the last pointers handed out by a core -/
def Last (s : State K P) (a : Arr) (c : ℕ) : Prop := ∃ q p k, a.source = some q ∧ s.pointers[q]? = some p ∧ p.core = c ∧ s.cores[c]? = some k ∧ k.pointers = some q

/-- the current core and its coordinates -/
structure Live (s : State K P) (c : ℕ) (k : Core P) (cps : List (List K)) (ws : List K) : Prop where
  core : s.core = some c
  this : s.cores[c]? = some k
  block : s.blocks[k.block]? = some (List.zipWith weigh cps ws)
  len : cps.length = ws.length
  nonzero : ∀ w ∈ ws, w ≠ 0
  ptrs : ∀ q, k.pointers = some q → ∃ p, s.pointers[q]? = some p ∧ p.core = c ∧ (p.len = cps.length → p.block = k.block)

/-- an array of the user is that of the spline, or of a former core and has its own memory -/
def Kept (s : State K P) (c : ℕ) (saved : Option Arr) (size : ℕ) (a : Arr) : Prop :=
  (saved = some a ∧ a.source.isSome) ∨ (∃ d, d ≠ c ∧ Last s a d) ∧ a.block < size ∧ ∀ b, saved = some b → b.block ≠ a.block

/-- an array of a former core -/
def Dead (s : State K P) (c : ℕ) (saved : Option Arr) (size : ℕ) (a : Arr) : Prop := (∃ d, d ≠ c ∧ Last s a d) ∧ a.block < size ∧ ∀ b, saved = some b → b.block ≠ a.block

structure Sync (s : State K P) (c : ℕ) (k : Core P) (cps : List (List K)) (ws : List K) : Prop where
  live : Live s c k cps ws
  saved : (s.savedC = none ∧ s.savedW = none) ∨ ∃ a b, s.savedC = some a ∧ s.savedW = some b ∧ s.cmem[a.block]? = some cps ∧ s.wmem[b.block]? = some ws ∧ a.source = b.source ∧
    a.writable = true ∧ b.writable = true ∧ ∀ q, a.source = some q → k.pointers = some q ∧ s.pointers[q]? = some ⟨c, k.block, cps.length⟩
  heldC : ∀ a, some a ∈ s.heldC → Kept s c s.savedC s.cmem.length a
  heldW : ∀ a, some a ∈ s.heldW → Kept s c s.savedW s.wmem.length a

structure Good (count : P → ℕ) (s : State K P) (c : ℕ) (k : Core P) (cps : List (List K)) (ws : List K) : Prop where
  sync : Sync s c k cps ws
  count : cps.length = count k.props
  props : s.props = none ∨ s.props = some k.props

theorem getPointers_ok {s : State K P} {c : ℕ} {k : Core P} {cps : List (List K)} {ws : List K} (h : Live s c k cps ws) : ∃ ps cs q, getPointers s c k = ({ s with pointers := ps, cores := cs }, q) ∧
    (∀ (i : ℕ) (p : Pointers), s.pointers[i]? = some p → ps[i]? = some p) ∧ ps[q]? = some ⟨c, k.block, cps.length⟩ ∧ cs[c]? = some { k with pointers := some q } ∧ (∀ d : ℕ, d ≠ c → cs[d]? = s.cores[d]?) ∧
    cs.length = s.cores.length ∧ ∀ q', k.pointers = some q' → s.pointers[q']? = some ⟨c, k.block, cps.length⟩ → q = q' := by
  have hc := (List.getElem?_eq_some_iff.mp h.this).1
  have hn : (s.blocks[k.block]?).elim 0 List.length = cps.length := by rw [h.block]; simp [h.len]
  unfold getPointers
  simp only [hn]
  cases hk : k.pointers with
  | none =>
    simp only [Option.bind_none]
    refine ⟨_, _, _, rfl, fun i p hi => ?_, by simp, by simp [hc], fun d hd => by rw [List.getElem?_set_ne (Ne.symm hd)], by simp, fun q' hq => by simp at hq⟩
    rw [List.getElem?_append_left (List.getElem?_eq_some_iff.mp hi).1, hi]
  | some q =>
    obtain ⟨p, hp, hpc, hpb⟩ := h.ptrs q hk
    simp only [Option.bind_some, hp]
    by_cases e : p.len = cps.length
    · simp only [e, ↓reduceIte]
      have hpe : p = ⟨c, k.block, cps.length⟩ := by cases p; simp_all
      refine ⟨s.pointers, s.cores, q, rfl, fun i p hi => hi, by rw [hp, hpe], ?_, fun d _ => rfl, rfl, fun q' hq _ => by simpa using hq⟩
      rw [h.this]; cases k; simp_all
    · simp only [if_neg e]
      refine ⟨_, _, _, rfl, fun i p hi => ?_, by simp, by simp [hc], fun d hd => by rw [List.getElem?_set_ne (Ne.symm hd)], by simp, fun q' hq hq' => ?_⟩
      · rw [List.getElem?_append_left (List.getElem?_eq_some_iff.mp hi).1, hi]
      · cases hq
        rw [hp] at hq'
        exact absurd (congrArg Pointers.len (Option.some.inj hq')) e

/-- pointers of other cores stay -/
theorem Last.keep {s : State K P} {ps : List Pointers} {cs : List (Core P)} {a : Arr} {c d : ℕ} (h : Last s a d) (hd : d ≠ c) (hps : ∀ (i : ℕ) (p : Pointers), s.pointers[i]? = some p → ps[i]? = some p)
    (hcs : ∀ d : ℕ, d ≠ c → cs[d]? = s.cores[d]?) (s' : State K P) (e1 : s'.pointers = ps) (e2 : s'.cores = cs) : Last s' a d := by
  obtain ⟨q, p, k, h1, h2, h3, h4, h5⟩ := h
  exact ⟨q, p, k, h1, by rw [e1]; exact hps q p h2, h3, by rw [e2, hcs d hd]; exact h4, h5⟩

/-- an array of the user keeps its pointers when the core hands out pointers -/
theorem Kept.keep {s s' : State K P} {ps : List Pointers} {cs : List (Core P)} {a : Arr} {c : ℕ} {saved saved' : Option Arr} {n m : ℕ} (h : Kept s c saved n a)
    (hps : ∀ (i : ℕ) (p : Pointers), s.pointers[i]? = some p → ps[i]? = some p) (hcs : ∀ d : ℕ, d ≠ c → cs[d]? = s.cores[d]?) (e1 : s'.pointers = ps) (e2 : s'.cores = cs)
    (hs : saved = some a → a.source.isSome → False) (hn : n ≤ m) (hb : ∀ b, saved' = some b → (∃ b', saved = some b' ∧ b.block = b'.block) ∨ n ≤ b.block) : Dead s' c saved' m a := by
  rcases h with ⟨h1, h2⟩ | ⟨⟨d, hd, hl⟩, h2, h3⟩
  · exact (hs h1 h2).elim
  · refine ⟨⟨d, hd, hl.keep hd hps hcs s' e1 e2⟩, by omega, fun b hb' => ?_⟩
    rcases hb b hb' with ⟨b', e, e'⟩ | e
    · rw [e']; exact h3 b' e
    · omega

/-- `_prepare_coordinates` when nothing is connected -/
theorem prepare_raw {s : State K P} {c : ℕ} {k : Core P} {cps : List (List K)} {ws : List K} (h : Sync s c k cps ws) (hc : connected s.savedC = false) :
    ∃ s' k', prepare s = some s' ∧ Live s' c k' cps ws ∧
    (∃ a b, s'.savedC = some a ∧ s'.savedW = some b ∧ s'.cmem[a.block]? = some cps ∧ s'.wmem[b.block]? = some ws ∧ a.source = b.source ∧ a.writable = true ∧ b.writable = true ∧
      ∀ q, a.source = some q → k'.pointers = some q ∧ s'.pointers[q]? = some ⟨c, k'.block, cps.length⟩) ∧ k'.props = k.props ∧ k'.block = k.block ∧ connected s'.savedC = true ∧ connected s'.savedW = true ∧ s'.heldC = s.heldC ∧ s'.heldW = s.heldW ∧
      s'.blocks = s.blocks ∧ s'.props = s.props ∧ (∀ x, some x ∈ s'.heldC → Dead s' c s'.savedC s'.cmem.length x) ∧ ∀ x, some x ∈ s'.heldW → Dead s' c s'.savedW s'.wmem.length x := by
  have hl := h.live
  unfold prepare
  simp only [hl.core, hl.this, hl.block, Option.bind_some, Option.map_some]
  rcases h.saved with ⟨h1, h2⟩ | ⟨a, b, h1, h2, h3, h4, h5, h6, h7, h8⟩
  · simp only [h1, h2]
    have hl' : Live { s with cmem := s.cmem ++ [(List.zipWith weigh cps ws).map project], wmem := s.wmem ++ [(List.zipWith weigh cps ws).map Prod.snd] } c k cps ws :=
      ⟨hl.core, hl.this, hl.block, hl.len, hl.nonzero, hl.ptrs⟩
    obtain ⟨ps, cs, q, e, g1, g2, g3, g4, g5, g6⟩ := getPointers_ok hl'
    simp only [hl.core, h1, h2] at e
    simp only [e]
    refine ⟨_, { k with pointers := some q }, rfl, ⟨rfl, g3, hl.block, hl.len, hl.nonzero, fun q' hq => ?_⟩, ⟨_, _, rfl, rfl, ?_, ?_, rfl, rfl, rfl, fun q' hq => ?_⟩, rfl, rfl, rfl, rfl, rfl, rfl, rfl, rfl, fun x hx => ?_, fun x hx => ?_⟩
    · cases hq; exact ⟨_, g2, rfl, fun _ => rfl⟩
    · simp [map_project hl.len hl.nonzero]
    · simp [map_snd hl.len]
    · cases hq; exact ⟨rfl, g2⟩
    · exact (h.heldC x hx).keep g1 g4 rfl rfl (fun e1 _ => by rw [h1] at e1; simp at e1) (by simp) fun b hb => Or.inr (by cases hb; simp)
    · exact (h.heldW x hx).keep g1 g4 rfl rfl (fun e1 _ => by rw [h2] at e1; simp at e1) (by simp) fun b hb => Or.inr (by cases hb; simp)
  · have ha : a.source = none := by simpa [connected, h1] using hc
    have hb : b.source = none := by rw [← h5]; exact ha
    simp only [h1, h2]
    obtain ⟨ps, cs, q, e, g1, g2, g3, g4, g5, g6⟩ := getPointers_ok hl
    simp only [e]
    refine ⟨_, { k with pointers := some q }, rfl, ⟨hl.core, g3, hl.block, hl.len, hl.nonzero, fun q' hq => ?_⟩, 
      ⟨_, _, rfl, rfl, h3, h4, rfl, by simp [connect, h6, ha], by simp [connect, h7, hb], fun q' hq => ?_⟩, rfl, rfl, rfl, rfl, rfl, rfl, rfl, rfl, fun x hx => ?_, fun x hx => ?_⟩
    · cases hq; exact ⟨_, g2, rfl, fun _ => rfl⟩
    · cases hq; exact ⟨rfl, g2⟩
    · refine (h.heldC x hx).keep g1 g4 rfl rfl (fun e1 e2 => ?_) le_rfl fun y hy => Or.inl ⟨a, h1, by cases hy; rfl⟩
      rw [h1] at e1; cases e1; simp [ha] at e2
    · refine (h.heldW x hx).keep g1 g4 rfl rfl (fun e1 e2 => ?_) le_rfl fun y hy => Or.inl ⟨b, h2, by cases hy; rfl⟩
      rw [h2] at e1; cases e1; simp [hb] at e2

theorem prepare_sync {s : State K P} {c : ℕ} {k : Core P} {cps : List (List K)} {ws : List K} (h : Sync s c k cps ws) (hc : connected s.savedC = false) :
    ∃ s' k', prepare s = some s' ∧ Sync s' c k' cps ws ∧ k'.props = k.props ∧ k'.block = k.block ∧ connected s'.savedC = true ∧ connected s'.savedW = true ∧ s'.heldC = s.heldC ∧ s'.heldW = s.heldW ∧
      s'.blocks = s.blocks ∧ s'.props = s.props ∧ (∀ x, some x ∈ s'.heldC → Dead s' c s'.savedC s'.cmem.length x) ∧ ∀ x, some x ∈ s'.heldW → Dead s' c s'.savedW s'.wmem.length x := by
  obtain ⟨s', k', h1, h2, ⟨a, b, h3⟩, h4, h5, h6, h7, h8, h9, h10, h11, h12, h13⟩ := prepare_raw h hc
  exact ⟨s', k', h1, ⟨h2, Or.inr ⟨a, b, h3⟩, fun x hx => Or.inr (h12 x hx), fun x hx => Or.inr (h13 x hx)⟩, h4, h5, h6, h7, h8, h9, h10, h11, h12, h13⟩

theorem Sync.connected_iff {s : State K P} {c : ℕ} {k : Core P} {cps : List (List K)} {ws : List K} (h : Sync s c k cps ws) : connected s.savedC = connected s.savedW := by
  rcases h.saved with ⟨h1, h2⟩ | ⟨a, b, h1, h2, h3, h4, h5, h6, h7, h8⟩
  · simp [h1, h2]
  · simp [h1, h2, connected, h5]

/-- both getters -/
theorem get_sync {s : State K P} {c : ℕ} {k : Core P} {cps : List (List K)} {ws : List K} (h : Sync s c k cps ws) :
    ∃ s' k', getC s = some s' ∧ getW s = some s' ∧ Sync s' c k' cps ws ∧ k'.props = k.props ∧ k'.block = k.block ∧ connected s'.savedC = true ∧ connected s'.savedW = true ∧ s'.heldC = s.heldC ∧
      s'.heldW = s.heldW ∧ s'.blocks = s.blocks ∧ s'.props = s.props ∧ (connected s.savedC = true → s' = s) := by
  have hcore : s.core.isSome = true := by rw [h.live.core]; rfl
  have hcw := h.connected_iff
  cases hc : connected s.savedC with
  | true => exact ⟨s, k, by simp [getC, hc], by simp [getW, ← hcw, hc], h, rfl, rfl, hc, by rw [← hcw]; exact hc, rfl, rfl, rfl, rfl, fun _ => rfl⟩
  | false =>
    obtain ⟨s', k', h1, h2, h3, h4, h5, h6, h7, h8, h9, h10, -, -⟩ := prepare_sync h hc
    exact ⟨s', k', by simp [getC, hc, hcore, h1], by simp [getW, ← hcw, hc, hcore, h1], h2, h3, h4, h5, h6, h7, h8, h9, h10, fun e => by simp at e⟩

/-- a new core: everything the user has belongs to former cores -/
theorem newCore_good {count : P → ℕ} {s : State K P} {a b : Arr} {p : P} {cps : List (List K)} {ws : List K} (ha : s.savedC = some a) (hb : s.savedW = some b)
    (hp : s.props.or (s.current.map Core.props) = some p) (hc : s.cmem[a.block]? = some cps) (hw : s.wmem[b.block]? = some ws) (hl : cps.length = ws.length) (hn : ∀ w ∈ ws, w ≠ 0)
    (hcount : cps.length = count p) (haw : a.writable = true) (hbw : b.writable = true)
    (hC : ∀ x, some x ∈ s.heldC → (∃ d, Last s x d) ∧ x.block < s.cmem.length ∧ a.block ≠ x.block) (hW : ∀ x, some x ∈ s.heldW → (∃ d, Last s x d) ∧ x.block < s.wmem.length ∧ b.block ≠ x.block) :
    ∃ s' k', newCore count s = some ⟨s', false⟩ ∧ Good count s' s.cores.length k' cps ws ∧ k'.props = p ∧ s'.heldC = s.heldC ∧ s'.heldW = s.heldW := by
  unfold newCore
  simp only [ha, hb, hp, hc, hw, Option.bind_some, Option.map_some]
  rw [if_neg (by simp [hcount]), if_neg (by simp [hl])]
  have hlast : ∀ x d, Last s x d → d ≠ s.cores.length ∧ ∀ s' : State K P, s'.pointers = s.pointers → s'.cores = s.cores ++ [⟨s.blocks.length, p, none⟩] → Last s' x d := by
    rintro x d ⟨q, pp, k, h1, h2, h3, h4, h5⟩
    have hd := (List.getElem?_eq_some_iff.mp h4).1
    exact ⟨by omega, fun s' e1 e2 => ⟨q, pp, k, h1, by rw [e1]; exact h2, h3, by rw [e2, List.getElem?_append_left hd]; exact h4, h5⟩⟩
  refine ⟨_, ⟨s.blocks.length, p, none⟩, rfl, ⟨⟨⟨rfl, by simp, by simp, hl, hn, fun q hq => by simp at hq⟩,
    Or.inr ⟨_, _, rfl, rfl, hc, hw, rfl, haw, hbw, fun q hq => by simp [plain] at hq⟩, fun x hx => ?_, fun x hx => ?_⟩, hcount, Or.inr rfl⟩, rfl, rfl, rfl⟩
  · obtain ⟨⟨d, h1⟩, h2, h3⟩ := hC x hx
    exact Or.inr ⟨⟨d, (hlast x d h1).1, (hlast x d h1).2 _ rfl rfl⟩, h2, fun y hy => by cases hy; exact h3⟩
  · obtain ⟨⟨d, h1⟩, h2, h3⟩ := hW x hx
    exact Or.inr ⟨⟨d, (hlast x d h1).1, (hlast x d h1).2 _ rfl rfl⟩, h2, fun y hy => by cases hy; exact h3⟩

/-- arrays of the user, in a good state -/
theorem Sync.lastC {s : State K P} {c : ℕ} {k : Core P} {cps : List (List K)} {ws : List K} (h : Sync s c k cps ws) {x : Arr} (hx : some x ∈ s.heldC) :
    ∃ d, Last s x d ∧ x.block < s.cmem.length ∧ (connected s.savedC = false → d ≠ c ∧ ∀ b, s.savedC = some b → b.block ≠ x.block) ∧
      (d = c → ∀ q, k.pointers = some q → s.pointers[q]? = some ⟨c, k.block, cps.length⟩) := by
  rcases h.heldC x hx with ⟨h1, h2⟩ | ⟨⟨d, hd, hl⟩, h2, h3⟩
  · rcases h.saved with ⟨g1, g2⟩ | ⟨a, b, g1, g2, g3, g4, g5, g6, g7, g8⟩
    · rw [g1] at h1; simp at h1
    · rw [g1] at h1; cases h1
      obtain ⟨q, hq⟩ := Option.isSome_iff_exists.mp h2
      obtain ⟨g8, g9⟩ := g8 q hq
      exact ⟨c, ⟨q, _, k, hq, g9, rfl, h.live.this, g8⟩, (List.getElem?_eq_some_iff.mp g3).1, fun e => by simp [connected, g1, hq] at e, fun _ q' hq' => by
        rw [g8] at hq'; cases hq'; exact g9⟩
  · exact ⟨d, hl, h2, fun _ => ⟨hd, h3⟩, fun e => absurd e hd⟩

theorem Sync.lastW {s : State K P} {c : ℕ} {k : Core P} {cps : List (List K)} {ws : List K} (h : Sync s c k cps ws) {x : Arr} (hx : some x ∈ s.heldW) :
    ∃ d, Last s x d ∧ x.block < s.wmem.length ∧ (connected s.savedW = false → d ≠ c ∧ ∀ b, s.savedW = some b → b.block ≠ x.block) ∧
      (d = c → ∀ q, k.pointers = some q → s.pointers[q]? = some ⟨c, k.block, cps.length⟩) := by
  rcases h.heldW x hx with ⟨h1, h2⟩ | ⟨⟨d, hd, hl⟩, h2, h3⟩
  · rcases h.saved with ⟨g1, g2⟩ | ⟨a, b, g1, g2, g3, g4, g5, g6, g7, g8⟩
    · rw [g2] at h1; simp at h1
    · rw [g2] at h1; cases h1
      obtain ⟨q, hq⟩ := Option.isSome_iff_exists.mp h2
      obtain ⟨g8, g9⟩ := g8 q (by rw [g5]; exact hq)
      exact ⟨c, ⟨q, _, k, hq, g9, rfl, h.live.this, g8⟩, (List.getElem?_eq_some_iff.mp g4).1, fun e => by simp [connected, g2, hq] at e, fun _ q' hq' => by
        rw [g8] at hq'; cases hq'; exact g9⟩
  · exact ⟨d, hl, h2, fun _ => ⟨hd, h3⟩, fun e => absurd e hd⟩

theorem Sync.coordinates {s : State K P} {c : ℕ} {k : Core P} {cps : List (List K)} {ws : List K} (h : Sync s c k cps ws) :
    s.coordinates = some (List.zipWith weigh cps ws) ∧ s.current = some k := by
  have : s.current = some k := by simp [State.current, h.live.core, h.live.this]
  exact ⟨by simp [State.coordinates, this, h.live.block], this⟩

theorem Last.keep' {s s' : State K P} {ps : List Pointers} {cs : List (Core P)} {x : Arr} {c d q : ℕ} {k : Core P} {cps : List (List K)} {ws : List K} (hl : Live s c k cps ws) (h : Last s x d)
    (hlast : d = c → ∀ q, k.pointers = some q → s.pointers[q]? = some ⟨c, k.block, cps.length⟩) (g1 : ∀ (i : ℕ) (p : Pointers), s.pointers[i]? = some p → ps[i]? = some p)
    (g3 : cs[c]? = some { k with pointers := some q }) (g4 : ∀ d : ℕ, d ≠ c → cs[d]? = s.cores[d]?)
    (g6 : ∀ q', k.pointers = some q' → s.pointers[q']? = some ⟨c, k.block, cps.length⟩ → q = q') (e1 : s'.pointers = ps) (e2 : s'.cores = cs) : Last s' x d := by
  by_cases e : d = c
  · subst e
    obtain ⟨q0, p, k0, h1, h2, h3, h4, h5⟩ := h
    rw [hl.this] at h4
    cases h4
    have := g6 q0 h5 (hlast rfl q0 h5)
    subst this
    exact ⟨q, p, _, h1, by rw [e1]; exact g1 _ _ h2, h3, by rw [e2]; exact g3, rfl⟩
  · exact h.keep e g1 g4 s' e1 e2

/-- the second half of assigning control points or weights: both arrays are plain; they get connected with the former core, and then a new core is made of them -/
theorem assign_good {count : P → ℕ} {s s1 : State K P} {c : ℕ} {k : Core P} {cps : List (List K)} {ws : List K} (h : Good count s c k cps ws) {a b : Arr} {cps1 : List (List K)} {ws1 : List K}
    (e1 : s1.blocks = s.blocks) (e2 : s1.cores = s.cores) (e3 : s1.pointers = s.pointers) (e4 : s1.core = s.core) (e5 : s1.heldC = s.heldC) (e6 : s1.heldW = s.heldW) (e7 : s1.props = s.props)
    (ha : s1.savedC = some a) (hb : s1.savedW = some b) (ha' : a.source = none) (hb' : b.source = none) (haw : a.writable = true) (hbw : b.writable = true)
    (hc : s1.cmem[a.block]? = some cps1) (hw : s1.wmem[b.block]? = some ws1) (hl : cps1.length = ws1.length) (hn : ∀ w ∈ ws1, w ≠ 0) (hlen : cps1.length = cps.length)
    (hC : ∀ x, some x ∈ s.heldC → x.block < s1.cmem.length ∧ a.block ≠ x.block) (hW : ∀ x, some x ∈ s.heldW → x.block < s1.wmem.length ∧ b.block ≠ x.block) :
    ∃ s' k', (getC s1).bind (newCore count) = some ⟨s', false⟩ ∧ (getW s1).bind (newCore count) = some ⟨s', false⟩ ∧ Good count s' s.cores.length k' cps1 ws1 ∧ k'.props = k.props := by
  have hs := h.sync
  have hl1 : Live s1 c k cps ws := ⟨by rw [e4]; exact hs.live.core, by rw [e2]; exact hs.live.this, by rw [e1]; exact hs.live.block, hs.live.len, hs.live.nonzero, by rw [e3]; exact hs.live.ptrs⟩
  obtain ⟨ps, cs, q, e, g1, g2, g3, g4, g5, g6⟩ := getPointers_ok hl1
  rw [e2] at g4 g5
  rw [e3] at g1 g6
  have hcore : s1.core.isSome = true := by rw [hl1.core]; rfl
  have hp : prepare s1 = some { s1 with pointers := ps, cores := cs, savedC := some (connect a q), savedW := some (connect b q) } := by
    unfold prepare
    have e' := e
    simp only [hl1.core, ha, hb] at e'
    simp only [hl1.core, hl1.this, hl1.block, Option.bind_some, Option.map_some, ha, hb, e']
  have hgC : getC s1 = prepare s1 := by simp [getC, hcore, connected, ha, ha']
  have hgW : getW s1 = prepare s1 := by simp [getW, hcore, connected, hb, hb']
  rw [hgC, hgW, hp]
  simp only [Option.bind_some]
  obtain ⟨s', k', h1, h2, h3, h4, h5⟩ := newCore_good (count := count) (s := { s1 with pointers := ps, cores := cs, savedC := some (connect a q), savedW := some (connect b q) }) (a := connect a q)
    (b := connect b q) (p := k.props) (cps := cps1) (ws := ws1) rfl rfl
    (by
      have : (State.current { s1 with pointers := ps, cores := cs, savedC := some (connect a q), savedW := some (connect b q) }) = some { k with pointers := some q } := by
        simp [State.current, hl1.core, g3]
      rw [this]
      rcases h.props with h | h <;> simp [e7, h])
    hc hw hl hn (by rw [hlen]; exact h.count) (by simp [connect, haw, ha']) (by simp [connect, hbw, hb'])
    (fun x hx => by
      obtain ⟨d, l1, l2, l3, l4⟩ := hs.lastC (x := x) (by rw [← e5]; exact hx)
      obtain ⟨m1, m2⟩ := hC x (by rw [← e5]; exact hx)
      exact ⟨⟨d, l1.keep' hs.live l4 g1 g3 g4 g6 rfl rfl⟩, m1, m2⟩)
    (fun x hx => by
      obtain ⟨d, l1, l2, l3, l4⟩ := hs.lastW (x := x) (by rw [← e6]; exact hx)
      obtain ⟨m1, m2⟩ := hW x (by rw [← e6]; exact hx)
      exact ⟨⟨d, l1.keep' hs.live l4 g1 g3 g4 g6 rfl rfl⟩, m1, m2⟩)
  have : (State.cores { s1 with pointers := ps, cores := cs, savedC := some (connect a q), savedW := some (connect b q) }).length = s.cores.length := g5
  rw [this] at h2
  exact ⟨s', k', h1, h1, h2, h3⟩

/-- before the first spline -/
structure Start (s : State K P) : Prop where
  core : s.core = none
  savedC : s.savedC = none
  savedW : s.savedW = none
  heldC : ∀ a ∈ s.heldC, a = none
  heldW : ∀ a ∈ s.heldW, a = none

/-- array `j` of the user is the array of control points of the spline -/
def AttC (s : State K P) (j : ℕ) : Prop := ∃ a, s.heldC[j]? = some (some a) ∧ s.savedC = some a ∧ a.source.isSome

def AttW (s : State K P) (j : ℕ) : Prop := ∃ a, s.heldW[j]? = some (some a) ∧ s.savedW = some a ∧ a.source.isSome

def Fine (count : P → ℕ) (s : State K P) : Prop := Start s ∨ ∃ c k cps ws, Good count s c k cps ws

theorem new_good {count : P → ℕ} {s : State K P} {p : P} {cps : List (List K)} {ws : List K} (hcount : cps.length = count p) (hl : ws.length = cps.length) (hn : ∀ w ∈ ws, w ≠ 0)
    (hC : ∀ x, some x ∈ s.heldC → (∃ d, Last s x d) ∧ x.block < s.cmem.length) (hW : ∀ x, some x ∈ s.heldW → (∃ d, Last s x d) ∧ x.block < s.wmem.length) :
    ∃ s' k', step count s (.new p cps ws) = some ⟨s', false⟩ ∧ Good count s' s.cores.length k' cps ws := by
  obtain ⟨s', k', h1, h2, -, -, -⟩ := newCore_good (count := count) (s := { s with core := none, cmem := s.cmem ++ [cps], wmem := s.wmem ++ [ws], savedC := some ⟨s.cmem.length, none, true⟩, savedW := some ⟨s.wmem.length, none, true⟩, props := some p })
    (a := ⟨s.cmem.length, none, true⟩) (b := ⟨s.wmem.length, none, true⟩) (p := p) (cps := cps) (ws := ws) rfl rfl rfl (by simp) (by simp) hl.symm hn hcount rfl rfl
    (fun x hx => ⟨(hC x hx).1, by have := (hC x hx).2; simp only [List.length_append, List.length_singleton]; omega, by have := (hC x hx).2; simp only; omega⟩)
    (fun x hx => ⟨(hW x hx).1, by have := (hW x hx).2; simp only [List.length_append, List.length_singleton]; omega, by have := (hW x hx).2; simp only; omega⟩)
  refine ⟨s', k', ?_, h2⟩
  simp only [step, h1]
  rfl

theorem noArrays_C {s : State K P} (h : Spec.NoArrays s) (x : Arr) (hx : some x ∈ s.heldC) : False := by simpa using h.1 _ hx

theorem noArrays_W {s : State K P} (h : Spec.NoArrays s) (x : Arr) (hx : some x ∈ s.heldW) : False := by simpa using h.2 _ hx

theorem setProps_good {count : P → ℕ} {s : State K P} {c : ℕ} {k : Core P} {cps : List (List K)} {ws : List K} (h : Good count s c k cps ws) {p : P} (hno : Spec.NoArrays s) (hp : cps.length = count p) :
    ∃ s' c' k', step count s (.setProps p) = some ⟨s', false⟩ ∧ Good count s' c' k' cps ws := by
  have h0 : Sync { s with props := some p } c k cps ws :=
    ⟨⟨h.sync.live.core, h.sync.live.this, h.sync.live.block, h.sync.live.len, h.sync.live.nonzero, h.sync.live.ptrs⟩, h.sync.saved, h.sync.heldC, h.sync.heldW⟩
  obtain ⟨s1, k1, g1, g2, g3, g4, g5, g6, g7, g8, g9, g10, g11, g12⟩ := get_sync h0
  have hW : getW s1 = some s1 := by simp [getW, g7]
  rcases g3.saved with ⟨e1, e2⟩ | ⟨a, b, e1, e2, e3, e4, e5, e6, e7, e8⟩
  · simp [e1, connected] at g6
  · obtain ⟨s', k', h1, h2, h3, h4, h5⟩ := newCore_good (count := count) (s := s1) (a := a) (b := b) (p := p) (cps := cps) (ws := ws) e1 e2 (by rw [g11]; rfl) e3 e4 g3.live.len g3.live.nonzero hp e6 e7
      (fun x hx => (noArrays_C hno x (by rw [g8] at hx; exact hx)).elim) (fun x hx => (noArrays_W hno x (by rw [g9] at hx; exact hx)).elim)
    refine ⟨s', _, k', ?_, h2⟩
    simp only [step, g1, hW, Option.bind_some, h1]

theorem getPointers_savedC {s : State K P} (x : Option Arr) (c : ℕ) (k : Core P) : getPointers { s with savedC := x } c k = ({ (getPointers s c k).1 with savedC := x }, (getPointers s c k).2) := by
  unfold getPointers
  simp only
  cases (k.pointers.bind fun q => (s.pointers[q]?).bind fun p => if p.len = (s.blocks[k.block]?).elim 0 List.length then some q else none) <;> rfl

theorem getPointers_savedW {s : State K P} (x : Option Arr) (c : ℕ) (k : Core P) : getPointers { s with savedW := x } c k = ({ (getPointers s c k).1 with savedW := x }, (getPointers s c k).2) := by
  unfold getPointers
  simp only
  cases (k.pointers.bind fun q => (s.pointers[q]?).bind fun p => if p.len = (s.blocks[k.block]?).elim 0 List.length then some q else none) <;> rfl

theorem setCps_good {count : P → ℕ} {s : State K P} {c : ℕ} {k : Core P} {cps : List (List K)} {ws : List K} (h : Good count s c k cps ws) {cps1 : List (List K)} (hl : cps1.length = cps.length) :
    ∃ s' c' k' cps', step count s (.setCps cps1) = some ⟨s', false⟩ ∧ Good count s' c' k' cps' ws ∧ (s.savedW ≠ none → cps' = cps1) := by
  rcases h.sync.saved with ⟨h1, h2⟩ | ⟨a, b, h1, h2, h3, h4, h5, h6, h7, h8⟩
  · -- nothing is saved: the control points of the core are taken
    have h0 : Sync { s with cmem := s.cmem ++ [cps1] } c k cps ws :=
      ⟨⟨h.sync.live.core, h.sync.live.this, h.sync.live.block, h.sync.live.len, h.sync.live.nonzero, h.sync.live.ptrs⟩, Or.inl ⟨h1, h2⟩,
        fun x hx => (h.sync.heldC x hx).elim (fun e => by rw [h1] at e; simp at e) (fun e => Or.inr ⟨e.1, by have := e.2.1; simp only [List.length_append, List.length_singleton]; omega, e.2.2⟩),
        h.sync.heldW⟩
    obtain ⟨s1, k1, g1, g3, g4, g5, g6, g7, g8, g9, g10, g11, g12, g13⟩ := prepare_sync h0 (by simp [h1, connected])
    have hp : prepare { s with cmem := s.cmem ++ [cps1], savedC := some ⟨s.cmem.length, none, true⟩ } = some s1 := by
      rw [← g1]
      unfold prepare
      simp only [h.sync.live.core, h.sync.live.this, h.sync.live.block, Option.bind_some, Option.map_some, h1, h2, Option.some.injEq]
      have e := getPointers_savedC (s := { s with core := some c, cmem := s.cmem ++ [cps1] ++ [(List.zipWith weigh cps ws).map project], wmem := s.wmem ++ [(List.zipWith weigh cps ws).map Prod.snd], savedC := none, savedW := none })
        (some ⟨s.cmem.length, none, true⟩) c k
      simp only at e
      rw [e]
    have hgW : getW { s with cmem := s.cmem ++ [cps1], savedC := some ⟨s.cmem.length, none, true⟩ } = some s1 := by
      rw [← hp]; simp [getW, h2, connected, h.sync.live.core]
    rcases g3.saved with ⟨e1, e2⟩ | ⟨a, b, e1, e2, e3, e4, e5, e6, e7, e8⟩
    · simp [e1, connected] at g6
    · obtain ⟨s', k', f1, f2, f3, f4, f5⟩ := newCore_good (count := count) (s := s1) (a := a) (b := b) (p := k.props) (cps := cps) (ws := ws) e1 e2
        (by
          rw [g3.coordinates.2, g11]
          simp only [Option.map_some, g4]
          rcases h.props with e | e <;> simp [e])
        e3 e4 g3.live.len g3.live.nonzero h.count e6 e7
        (fun x hx => by obtain ⟨⟨d, -, l⟩, l2, l3⟩ := g12 x hx; exact ⟨⟨d, l⟩, l2, l3 a e1⟩)
        (fun x hx => by obtain ⟨⟨d, -, l⟩, l2, l3⟩ := g13 x hx; exact ⟨⟨d, l⟩, l2, l3 b e2⟩)
      refine ⟨s', _, k', cps, ?_, f2, fun e => absurd h2 e⟩
      simp only [h2] at hgW
      simp only [step, h2, Option.map_none, hgW, Option.bind_some, f1]
  · have hstep : step count s (.setCps cps1) = (getW { (if b.source.isSome then { s with wmem := s.wmem ++ [ws], savedW := some ⟨s.wmem.length, none, true⟩ } else s : State K P) with
        cmem := s.cmem ++ [cps1], savedC := some ⟨s.cmem.length, none, true⟩ }).bind (newCore count) := by
      simp only [step, h2, Option.map_some, h4, Option.getD_some]
      rw [if_neg (by rw [not_not, hl, h.sync.live.len])]
      split <;> rfl
    rw [hstep]
    have hbl := (List.getElem?_eq_some_iff.mp h4).1
    cases hb : b.source with
    | none =>
      obtain ⟨s', k', f1, f2, f3, f4⟩ := assign_good h (s1 := { s with cmem := s.cmem ++ [cps1], savedC := some ⟨s.cmem.length, none, true⟩ }) (a := ⟨s.cmem.length, none, true⟩) (b := b)
        (cps1 := cps1) (ws1 := ws) rfl rfl rfl rfl rfl rfl rfl rfl h2 rfl hb rfl h7 (by simp) h4 (by rw [hl, h.sync.live.len]) h.sync.live.nonzero hl
        (fun x hx => by obtain ⟨d, -, l2, -⟩ := h.sync.lastC hx; exact ⟨by simp only [List.length_append, List.length_singleton]; omega, by simp only; omega⟩)
        (fun x hx => by obtain ⟨d, -, l2, l3, -⟩ := h.sync.lastW hx; exact ⟨l2, (l3 (by simp [connected, h2, hb])).2 b h2⟩)
      exact ⟨s', _, k', cps1, by simpa [hb] using f2, f3, fun _ => rfl⟩
    | some q =>
      obtain ⟨s', k', f1, f2, f3, f4⟩ := assign_good h (s1 := { s with wmem := s.wmem ++ [ws], savedW := some ⟨s.wmem.length, none, true⟩, cmem := s.cmem ++ [cps1], savedC := some ⟨s.cmem.length, none, true⟩ })
        (a := ⟨s.cmem.length, none, true⟩) (b := ⟨s.wmem.length, none, true⟩)
        (cps1 := cps1) (ws1 := ws) rfl rfl rfl rfl rfl rfl rfl rfl rfl rfl rfl rfl rfl (by simp) (by simp) (by rw [hl, h.sync.live.len]) h.sync.live.nonzero hl
        (fun x hx => by obtain ⟨d, -, l2, -⟩ := h.sync.lastC hx; exact ⟨by simp only [List.length_append, List.length_singleton]; omega, by simp only; omega⟩)
        (fun x hx => by obtain ⟨d, -, l2, -⟩ := h.sync.lastW hx; exact ⟨by simp only [List.length_append, List.length_singleton]; omega, by simp only; omega⟩)
      exact ⟨s', _, k', cps1, by simpa [hb] using f2, f3, fun _ => rfl⟩

theorem setWs_good {count : P → ℕ} {s : State K P} {c : ℕ} {k : Core P} {cps : List (List K)} {ws : List K} (h : Good count s c k cps ws) {ws1 : List K} (hl : ws1.length = cps.length) (hn : ∀ w ∈ ws1, w ≠ 0) :
    ∃ s' c' k' ws', step count s (.setWs ws1) = some ⟨s', false⟩ ∧ Good count s' c' k' cps ws' ∧ (s.savedC ≠ none → ws' = ws1) := by
  rcases h.sync.saved with ⟨h1, h2⟩ | ⟨a, b, h1, h2, h3, h4, h5, h6, h7, h8⟩
  · -- nothing is saved: the weights of the core are taken
    have h0 : Sync { s with wmem := s.wmem ++ [ws1] } c k cps ws :=
      ⟨⟨h.sync.live.core, h.sync.live.this, h.sync.live.block, h.sync.live.len, h.sync.live.nonzero, h.sync.live.ptrs⟩, Or.inl ⟨h1, h2⟩, h.sync.heldC,
        fun x hx => (h.sync.heldW x hx).elim (fun e => by rw [h2] at e; simp at e) (fun e => Or.inr ⟨e.1, by have := e.2.1; simp only [List.length_append, List.length_singleton]; omega, e.2.2⟩)⟩
    obtain ⟨s1, k1, g1, g3, g4, g5, g6, g7, g8, g9, g10, g11, g12, g13⟩ := prepare_sync h0 (by simp [h1, connected])
    have hp : prepare { s with wmem := s.wmem ++ [ws1], savedW := some ⟨s.wmem.length, none, true⟩ } = some s1 := by
      rw [← g1]
      unfold prepare
      simp only [h.sync.live.core, h.sync.live.this, h.sync.live.block, Option.bind_some, Option.map_some, h1, h2, Option.some.injEq]
      have e := getPointers_savedW (s := { s with core := some c, cmem := s.cmem ++ [(List.zipWith weigh cps ws).map project], wmem := s.wmem ++ [ws1] ++ [(List.zipWith weigh cps ws).map Prod.snd], savedC := none, savedW := none })
        (some ⟨s.wmem.length, none, true⟩) c k
      simp only at e
      rw [e]
    have hgC : getC { s with wmem := s.wmem ++ [ws1], savedW := some ⟨s.wmem.length, none, true⟩ } = some s1 := by
      rw [← hp]; simp [getC, h1, connected, h.sync.live.core]
    rcases g3.saved with ⟨e1, e2⟩ | ⟨a, b, e1, e2, e3, e4, e5, e6, e7, e8⟩
    · simp [e1, connected] at g6
    · obtain ⟨s', k', f1, f2, f3, f4, f5⟩ := newCore_good (count := count) (s := s1) (a := a) (b := b) (p := k.props) (cps := cps) (ws := ws) e1 e2
        (by
          rw [g3.coordinates.2, g11]
          simp only [Option.map_some, g4]
          rcases h.props with e | e <;> simp [e])
        e3 e4 g3.live.len g3.live.nonzero h.count e6 e7
        (fun x hx => by obtain ⟨⟨d, -, l⟩, l2, l3⟩ := g12 x hx; exact ⟨⟨d, l⟩, l2, l3 a e1⟩)
        (fun x hx => by obtain ⟨⟨d, -, l⟩, l2, l3⟩ := g13 x hx; exact ⟨⟨d, l⟩, l2, l3 b e2⟩)
      refine ⟨s', _, k', ws, ?_, f2, fun e => absurd h1 e⟩
      simp only [h1] at hgC
      simp only [step, h1, Option.map_none, hgC, Option.bind_some, f1]
  · have hstep : step count s (.setWs ws1) = (getC { (if a.source.isSome then { s with cmem := s.cmem ++ [cps], savedC := some ⟨s.cmem.length, none, true⟩ } else s : State K P) with
        wmem := s.wmem ++ [ws1], savedW := some ⟨s.wmem.length, none, true⟩ }).bind (newCore count) := by
      simp only [step, h1, Option.map_some, h3, Option.getD_some]
      rw [if_neg (by rw [not_not, hl])]
      split <;> rfl
    rw [hstep]
    cases ha : a.source with
    | none =>
      obtain ⟨s', k', f1, f2, f3, f4⟩ := assign_good h (s1 := { s with wmem := s.wmem ++ [ws1], savedW := some ⟨s.wmem.length, none, true⟩ }) (a := a) (b := ⟨s.wmem.length, none, true⟩)
        (cps1 := cps) (ws1 := ws1) rfl rfl rfl rfl rfl rfl rfl h1 rfl ha rfl h6 rfl h3 (by simp) hl.symm hn rfl
        (fun x hx => by obtain ⟨d, -, l2, l3, -⟩ := h.sync.lastC hx; exact ⟨l2, (l3 (by simp [connected, h1, ha])).2 a h1⟩)
        (fun x hx => by obtain ⟨d, -, l2, -⟩ := h.sync.lastW hx; exact ⟨by simp only [List.length_append, List.length_singleton]; omega, by simp only; omega⟩)
      exact ⟨s', _, k', ws1, by simpa [ha] using f1, f3, fun _ => rfl⟩
    | some q =>
      obtain ⟨s', k', f1, f2, f3, f4⟩ := assign_good h (s1 := { s with cmem := s.cmem ++ [cps], savedC := some ⟨s.cmem.length, none, true⟩, wmem := s.wmem ++ [ws1], savedW := some ⟨s.wmem.length, none, true⟩ })
        (a := ⟨s.cmem.length, none, true⟩) (b := ⟨s.wmem.length, none, true⟩)
        (cps1 := cps) (ws1 := ws1) rfl rfl rfl rfl rfl rfl rfl rfl rfl rfl rfl rfl rfl (by simp) (by simp) hl.symm hn rfl
        (fun x hx => by obtain ⟨d, -, l2, -⟩ := h.sync.lastC hx; exact ⟨by simp only [List.length_append, List.length_singleton]; omega, by simp only; omega⟩)
        (fun x hx => by obtain ⟨d, -, l2, -⟩ := h.sync.lastW hx; exact ⟨by simp only [List.length_append, List.length_singleton]; omega, by simp only; omega⟩)
      exact ⟨s', _, k', ws1, by simpa [ha] using f1, f3, fun _ => rfl⟩

theorem refine_good {count : P → ℕ} {s : State K P} {c : ℕ} {k : Core P} {cps : List (List K)} {ws : List K} (h : Good count s c k cps ws) {p : P} {cps1 : List (List K)} {ws1 : List K}
    (hno : Spec.NoArrays s) (hc : cps1.length = count p) (hl : ws1.length = cps1.length) (hn : ∀ w ∈ ws1, w ≠ 0) (hnew : Spec.NewCount s cps1.length) :
    ∃ s' k', step count s (.refine (some (p, cps1, ws1))) = some ⟨s', false⟩ ∧ Good count s' c k' cps1 ws1 := by
  have hcl := (List.getElem?_eq_some_iff.mp h.sync.live.this).1
  refine ⟨{ s with blocks := s.blocks ++ [List.zipWith weigh cps1 ws1], cores := s.cores.set c ⟨s.blocks.length, p, k.pointers⟩, savedC := none, savedW := none, props := none }, ⟨s.blocks.length, p, k.pointers⟩,
    by simp only [step, h.sync.live.core, h.sync.live.this, Option.map_some], ⟨⟨?_, by simp [hcl], by simp, hl.symm, hn, fun q hq => ?_⟩, Or.inl ⟨rfl, rfl⟩,
    fun x hx => (noArrays_C hno x hx).elim, fun x hx => (noArrays_W hno x hx).elim⟩, hc, Or.inl rfl⟩
  · exact h.sync.live.core
  · obtain ⟨pp, h1, h2, h3⟩ := h.sync.live.ptrs q hq
    exact ⟨pp, h1, h2, fun e => absurd e (hnew k q pp h.sync.coordinates.2 hq h1)⟩

theorem drop_good {count : P → ℕ} {s : State K P} {c : ℕ} {k : Core P} {cps : List (List K)} {ws : List K} (h : Good count s c k cps ws) (hno : Spec.NoArrays s) :
    ∃ s', step count s (.refine none) = some ⟨s', false⟩ ∧ Good count s' c k cps ws := by
  refine ⟨{ s with savedC := none, savedW := none, props := none }, by simp only [step, h.sync.live.core, h.sync.live.this, Option.map_some], ⟨⟨h.sync.live.core, h.sync.live.this, h.sync.live.block, h.sync.live.len, h.sync.live.nonzero, h.sync.live.ptrs⟩, Or.inl ⟨rfl, rfl⟩,
    fun x hx => (noArrays_C hno x hx).elim, fun x hx => (noArrays_W hno x hx).elim⟩, h.count, Or.inl rfl⟩

/-- reading the control points -/
theorem readC_good {count : P → ℕ} {s : State K P} {c : ℕ} {k : Core P} {cps : List (List K)} {ws : List K} (h : Good count s c k cps ws) :
    ∃ s' k', step count s .readC = some ⟨s', false⟩ ∧ Good count s' c k' cps ws ∧ AttC s' s.heldC.length ∧ s'.heldC.length = s.heldC.length + 1 ∧ s'.heldW = s.heldW ∧
      (∀ j, AttC s j → AttC s' j) ∧ ∀ j, AttW s j → AttW s' j := by
  obtain ⟨s1, k1, g1, g2, g3, g4, g5, g6, g7, g8, g9, g10, g11, g12⟩ := get_sync h.sync
  have hatt : ∀ a, s.savedC = some a → a.source.isSome → s1 = s := fun a e1 e2 => g12 (by simp [connected, e1, e2])
  rcases g3.saved with ⟨e1, e2⟩ | ⟨a, b, e1, e2, e3, e4, e5, e6, e7, e8⟩
  · simp [e1, connected] at g6
  · have hsrc : a.source.isSome = true := by simpa [connected, e1] using g6
    refine ⟨{ s1 with heldC := s1.heldC ++ [s1.savedC] }, k1, by simp only [step, g1, Option.map_some], ⟨⟨⟨g3.live.core, g3.live.this, g3.live.block, g3.live.len, g3.live.nonzero, g3.live.ptrs⟩, g3.saved, fun x hx => ?_, g3.heldW⟩,
      by rw [g4]; exact h.count, by rw [g4]; simp only [g11]; exact h.props⟩, ⟨a, by simp [g8, e1], e1, hsrc⟩, by simp [g8], g9, ?_, ?_⟩
    · rcases List.mem_append.mp hx with hx | hx
      · exact g3.heldC x hx
      · rw [List.mem_singleton] at hx
        exact Or.inl ⟨hx.symm, by rw [e1] at hx; cases hx; exact hsrc⟩
    · rintro j ⟨x, x1, x2, x3⟩
      have := hatt x x2 x3
      subst this
      exact ⟨x, by simp only; rw [List.getElem?_append_left (List.getElem?_eq_some_iff.mp x1).1]; exact x1, x2, x3⟩
    · rintro j ⟨x, x1, x2, x3⟩
      have : s1 = s := g12 (by rw [h.sync.connected_iff]; simp [connected, x2, x3])
      subst this
      exact ⟨x, x1, x2, x3⟩

/-- reading the weights -/
theorem readW_good {count : P → ℕ} {s : State K P} {c : ℕ} {k : Core P} {cps : List (List K)} {ws : List K} (h : Good count s c k cps ws) :
    ∃ s' k', step count s .readW = some ⟨s', false⟩ ∧ Good count s' c k' cps ws ∧ AttW s' s.heldW.length ∧ s'.heldW.length = s.heldW.length + 1 ∧ s'.heldC = s.heldC ∧
      (∀ j, AttC s j → AttC s' j) ∧ ∀ j, AttW s j → AttW s' j := by
  obtain ⟨s1, k1, g1, g2, g3, g4, g5, g6, g7, g8, g9, g10, g11, g12⟩ := get_sync h.sync
  rcases g3.saved with ⟨e1, e2⟩ | ⟨a, b, e1, e2, e3, e4, e5, e6, e7, e8⟩
  · simp [e1, connected] at g6
  · have hsrc : b.source.isSome = true := by simpa [connected, e2] using g7
    refine ⟨{ s1 with heldW := s1.heldW ++ [s1.savedW] }, k1, by simp only [step, g2, Option.map_some], ⟨⟨⟨g3.live.core, g3.live.this, g3.live.block, g3.live.len, g3.live.nonzero, g3.live.ptrs⟩, g3.saved, g3.heldC, fun x hx => ?_⟩,
      by rw [g4]; exact h.count, by rw [g4]; simp only [g11]; exact h.props⟩, ⟨b, by simp [g9, e2], e2, hsrc⟩, by simp [g9], g8, ?_, ?_⟩
    · rcases List.mem_append.mp hx with hx | hx
      · exact g3.heldW x hx
      · rw [List.mem_singleton] at hx
        exact Or.inl ⟨hx.symm, by rw [e2] at hx; cases hx; exact hsrc⟩
    · rintro j ⟨x, x1, x2, x3⟩
      have : s1 = s := g12 (by simp [connected, x2, x3])
      subst this
      exact ⟨x, x1, x2, x3⟩
    · rintro j ⟨x, x1, x2, x3⟩
      have : s1 = s := g12 (by rw [h.sync.connected_iff]; simp [connected, x2, x3])
      subst this
      exact ⟨x, by simp only; rw [List.getElem?_append_left (List.getElem?_eq_some_iff.mp x1).1]; exact x1, x2, x3⟩

theorem not_invalid {s : State K P} {c q : ℕ} (h : s.core = some c) (p : Pointers) (hp : p.core = c) : s.invalid q p = false := by simp [State.invalid, h, hp]

theorem dead_invalid {s : State K P} {c d : ℕ} (h : s.core = some c) (hd : d ≠ c) {x : Arr} (hl : Last s x d) : ∃ q p, x.source = some q ∧ s.pointers[q]? = some p ∧ s.invalid q p = true := by
  obtain ⟨q, p, k, h1, h2, h3, h4, h5⟩ := hl
  refine ⟨q, p, h1, h2, ?_⟩
  subst h3
  simp [State.invalid, h, Ne.symm hd, h4, h5]

/-- writing to an array of control points -/
theorem writeC_good {count : P → ℕ} {s : State K P} {c : ℕ} {k : Core P} {cps : List (List K)} {ws : List K} (h : Good count s c k cps ws) {j : ℕ} {a : Arr} (ha : s.heldC[j]? = some (some a)) (row : ℕ) (v : List K) :
    ∃ r cps', step count s (.writeC j row v) = some r ∧ Good count r.state c k cps' ws ∧ r.state.savedC = s.savedC ∧ r.state.savedW = s.savedW ∧ r.state.heldC = s.heldC ∧ r.state.heldW = s.heldW ∧
      (AttC s j → row < cps.length → r.raised = false ∧ cps' = cps.set row v) := by
  have hk := h.sync.heldC a (List.mem_of_getElem? ha)
  have hal : a.block < s.cmem.length := by obtain ⟨d, -, l, -⟩ := h.sync.lastC (List.mem_of_getElem? ha); exact l
  obtain ⟨old, hold⟩ : ∃ old, s.cmem[a.block]? = some old := ⟨_, List.getElem?_eq_getElem hal⟩
  have hatt : AttC s j → s.savedC = some a ∧ a.source.isSome := by
    rintro ⟨b, b1, b2, b3⟩
    rw [ha] at b1; cases b1
    exact ⟨b2, b3⟩
  simp only [step, ha, Option.bind_some, id, hold]
  split
  · rename_i hbad
    refine ⟨_, cps, rfl, h, rfl, rfl, rfl, rfl, fun hA hrow => ?_⟩
    obtain ⟨b1, b2⟩ := hatt hA
    rcases h.sync.saved with ⟨e1, e2⟩ | ⟨a', b, e1, e2, e3, e4, e5, e6, e7, e8⟩
    · rw [e1] at b1; simp at b1
    · rw [e1] at b1; cases b1
      rw [e3] at hold; cases hold
      rcases hbad with e | e
      · rw [e6] at e; simp at e
      · omega
  · rename_i hgood
    rw [not_or, not_le] at hgood
    rcases hk with ⟨k1, k2⟩ | ⟨⟨d, hd, hl⟩, k2, k3⟩
    · rcases h.sync.saved with ⟨e1, e2⟩ | ⟨a', b, e1, e2, e3, e4, e5, e6, e7, e8⟩
      · rw [e1] at k1; simp at k1
      · rw [e1] at k1; cases k1
        rw [e3] at hold; cases hold
        obtain ⟨q, hq⟩ := Option.isSome_iff_exists.mp k2
        obtain ⟨f1, f2⟩ := e8 q hq
        simp only [hq, Option.bind_some, f2, Option.map_some]
        rw [if_neg (by rw [not_invalid h.sync.live.core _ rfl]; simp), if_pos (by simp [State.alive, h.sync.coordinates.2, hgood.2])]
        have hkb := (List.getElem?_eq_some_iff.mp h.sync.live.block).1
        refine ⟨_, cps.set row v, rfl, ⟨⟨⟨h.sync.live.core, h.sync.live.this, ?_, by simpa using h.sync.live.len, h.sync.live.nonzero, ?_⟩, Or.inr ⟨a, b, e1, e2, ?_, e4, e5, e6, e7, ?_⟩, ?_, h.sync.heldW⟩, by simpa using h.count, h.props⟩,
          rfl, rfl, rfl, rfl, fun _ _ => ⟨rfl, rfl⟩⟩
        · simp only [List.getElem?_modify]
          rw [h.sync.live.block]
          simp [storeC_weigh]
        · intro q' hq'
          obtain ⟨p', p1, p2, p3⟩ := h.sync.live.ptrs q' hq'
          exact ⟨p', p1, p2, fun e => p3 (by simpa using e)⟩
        · simp [hal]
        · intro q' hq'
          obtain ⟨z1, z2⟩ := e8 q' hq'
          exact ⟨z1, by simpa using z2⟩
        · intro x hx
          rcases h.sync.heldC x hx with y | ⟨y1, y2, y3⟩
          · exact Or.inl y
          · exact Or.inr ⟨y1, by simpa using y2, y3⟩
    · obtain ⟨q, p, hq, hp, hinv⟩ := dead_invalid h.sync.live.core hd hl
      simp only [hq, Option.bind_some, hp, Option.map_some]
      rw [if_pos hinv]
      refine ⟨_, cps, rfl, ⟨⟨⟨h.sync.live.core, h.sync.live.this, h.sync.live.block, h.sync.live.len, h.sync.live.nonzero, h.sync.live.ptrs⟩, ?_, ?_, h.sync.heldW⟩, h.count, h.props⟩, rfl, rfl, rfl, rfl, fun hA _ => ?_⟩
      · rcases h.sync.saved with e | ⟨a', b, e1, e2, e3, e4⟩
        · exact Or.inl e
        · exact Or.inr ⟨a', b, e1, e2, by simp only; rw [List.getElem?_set_ne (Ne.symm (k3 a' e1))]; exact e3, e4⟩
      · intro x hx
        rcases h.sync.heldC x hx with y | ⟨y1, y2, y3⟩
        · exact Or.inl y
        · exact Or.inr ⟨y1, by simpa using y2, y3⟩
      · obtain ⟨b1, b2⟩ := hatt hA
        exact absurd rfl (k3 a b1)

/-- writing to an array of weights -/
theorem writeW_good {count : P → ℕ} {s : State K P} {c : ℕ} {k : Core P} {cps : List (List K)} {ws : List K} (h : Good count s c k cps ws) {j : ℕ} {a : Arr} (ha : s.heldW[j]? = some (some a)) (row : ℕ) {v : K} (hv : v ≠ 0) :
    ∃ r ws', step count s (.writeW j row v) = some r ∧ Good count r.state c k cps ws' ∧ r.state.savedC = s.savedC ∧ r.state.savedW = s.savedW ∧ r.state.heldC = s.heldC ∧ r.state.heldW = s.heldW ∧
      (AttW s j → row < ws.length → r.raised = false ∧ ws' = ws.set row v) := by
  have hk := h.sync.heldW a (List.mem_of_getElem? ha)
  have hal : a.block < s.wmem.length := by obtain ⟨d, -, l, -⟩ := h.sync.lastW (List.mem_of_getElem? ha); exact l
  obtain ⟨old, hold⟩ : ∃ old, s.wmem[a.block]? = some old := ⟨_, List.getElem?_eq_getElem hal⟩
  have hatt : AttW s j → s.savedW = some a ∧ a.source.isSome := by
    rintro ⟨b, b1, b2, b3⟩
    rw [ha] at b1; cases b1
    exact ⟨b2, b3⟩
  simp only [step, ha, Option.bind_some, id, hold]
  split
  · rename_i hbad
    refine ⟨_, ws, rfl, h, rfl, rfl, rfl, rfl, fun hA hrow => ?_⟩
    obtain ⟨b1, b2⟩ := hatt hA
    rcases h.sync.saved with ⟨e1, e2⟩ | ⟨a', b, e1, e2, e3, e4, e5, e6, e7, e8⟩
    · rw [e2] at b1; simp at b1
    · rw [e2] at b1; cases b1
      rw [e4] at hold; cases hold
      rcases hbad with e | e
      · rw [e7] at e; simp at e
      · omega
  · rename_i hgood
    rw [not_or, not_le] at hgood
    rcases hk with ⟨k1, k2⟩ | ⟨⟨d, hd, hl⟩, k2, k3⟩
    · rcases h.sync.saved with ⟨e1, e2⟩ | ⟨a', b, e1, e2, e3, e4, e5, e6, e7, e8⟩
      · rw [e2] at k1; simp at k1
      · rw [e2] at k1; cases k1
        rw [e4] at hold; cases hold
        obtain ⟨q, hq⟩ := Option.isSome_iff_exists.mp k2
        obtain ⟨f1, f2⟩ := e8 q (by rw [e5]; exact hq)
        simp only [hq, Option.bind_some, f2, Option.map_some]
        rw [if_neg (by rw [not_invalid h.sync.live.core _ rfl]; simp), if_neg (by simp [State.locked, h.sync.coordinates.2, f1]), if_pos (by simp [State.alive, h.sync.coordinates.2, h.sync.live.len])]
        refine ⟨_, ws.set row v, rfl, ⟨⟨⟨h.sync.live.core, h.sync.live.this, ?_, by rw [List.length_set]; exact h.sync.live.len, ?_, h.sync.live.ptrs⟩, Or.inr ⟨a', a, e1, e2, e3, ?_, e5, e6, e7, e8⟩, h.sync.heldC, ?_⟩, h.count, h.props⟩,
          rfl, rfl, rfl, rfl, fun _ _ => ⟨rfl, rfl⟩⟩
        · simp only [List.getElem?_modify]
          rw [h.sync.live.block]
          have e := syncW_weigh (ws' := ws.set row v) h.sync.live.len (List.length_set ..) h.sync.live.nonzero
          simp [e]
        · intro w hw
          rcases List.mem_or_eq_of_mem_set hw with e | e
          · exact h.sync.live.nonzero w e
          · exact e ▸ hv
        · simp [hal]
        · intro x hx
          rcases h.sync.heldW x hx with y | ⟨y1, y2, y3⟩
          · exact Or.inl y
          · exact Or.inr ⟨y1, by simpa using y2, y3⟩
    · obtain ⟨q, p, hq, hp, hinv⟩ := dead_invalid h.sync.live.core hd hl
      simp only [hq, Option.bind_some, hp, Option.map_some]
      rw [if_pos hinv]
      refine ⟨_, ws, rfl, ⟨⟨⟨h.sync.live.core, h.sync.live.this, h.sync.live.block, h.sync.live.len, h.sync.live.nonzero, h.sync.live.ptrs⟩, ?_, h.sync.heldC, ?_⟩, h.count, h.props⟩, rfl, rfl, rfl, rfl, fun hA _ => ?_⟩
      · rcases h.sync.saved with e | ⟨a', b, e1, e2, e3, e4, e5⟩
        · exact Or.inl e
        · exact Or.inr ⟨a', b, e1, e2, e3, by simp only; rw [List.getElem?_set_ne (Ne.symm (k3 b e2))]; exact e4, e5⟩
      · intro x hx
        rcases h.sync.heldW x hx with y | ⟨y1, y2, y3⟩
        · exact Or.inl y
        · exact Or.inr ⟨y1, by simpa using y2, y3⟩
      · obtain ⟨b1, b2⟩ := hatt hA
        exact absurd rfl (k3 a b1)

theorem held_of_shownC {s : State K P} {j : ℕ} (h : shownC s j ≠ none) : ∃ a, s.heldC[j]? = some (some a) := by
  rcases e : s.heldC[j]? with _ | _ | a
  · simp [shownC, e] at h
  · simp [shownC, e] at h
  · exact ⟨a, rfl⟩

theorem held_of_shownW {s : State K P} {j : ℕ} (h : shownW s j ≠ none) : ∃ a, s.heldW[j]? = some (some a) := by
  rcases e : s.heldW[j]? with _ | _ | a
  · simp [shownW, e] at h
  · simp [shownW, e] at h
  · exact ⟨a, rfl⟩

theorem releaseC_good {count : P → ℕ} {s : State K P} {c : ℕ} {k : Core P} {cps : List (List K)} {ws : List K} (h : Good count s c k cps ws) (j : ℕ) : Good count { s with heldC := s.heldC.set j none } c k cps ws := by
  refine ⟨⟨⟨h.sync.live.core, h.sync.live.this, h.sync.live.block, h.sync.live.len, h.sync.live.nonzero, h.sync.live.ptrs⟩, h.sync.saved, fun x hx => ?_, h.sync.heldW⟩, h.count, h.props⟩
  rcases List.mem_or_eq_of_mem_set hx with e | e
  · exact h.sync.heldC x e
  · cases e

theorem releaseW_good {count : P → ℕ} {s : State K P} {c : ℕ} {k : Core P} {cps : List (List K)} {ws : List K} (h : Good count s c k cps ws) (j : ℕ) : Good count { s with heldW := s.heldW.set j none } c k cps ws := by
  refine ⟨⟨⟨h.sync.live.core, h.sync.live.this, h.sync.live.block, h.sync.live.len, h.sync.live.nonzero, h.sync.live.ptrs⟩, h.sync.saved, h.sync.heldC, fun x hx => ?_⟩, h.count, h.props⟩
  rcases List.mem_or_eq_of_mem_set hx with e | e
  · exact h.sync.heldW x e
  · cases e

/-- calls that do not change the spline -/
theorem stays {count : P → ℕ} {s : State K P} {c : ℕ} {k : Core P} {cps : List (List K)} {ws : List K} (h : Good count s c k cps ws) {op : Op K P} (hop : Spec.Connecting count s op) (hch : ¬ Spec.Changes op) :
    ∃ r k' cps' ws', step count s op = some r ∧ Good count r.state c k' cps' ws' ∧ (∀ j, AttC s j → ¬ Spec.ReleasesC j op → AttC r.state j) ∧ ∀ j, AttW s j → ¬ Spec.ReleasesW j op → AttW r.state j := by
  cases op with
  | new => exact absurd trivial hch
  | setProps => exact absurd trivial hch
  | setCps => exact absurd trivial hch
  | setWs => exact absurd trivial hch
  | refine => exact absurd trivial hch
  | readC => obtain ⟨s', k', h1, h2, -, -, -, h3, h4⟩ := readC_good h; exact ⟨_, k', cps, ws, h1, h2, fun j hj _ => h3 j hj, fun j hj _ => h4 j hj⟩
  | readW => obtain ⟨s', k', h1, h2, -, -, -, h3, h4⟩ := readW_good h; exact ⟨_, k', cps, ws, h1, h2, fun j hj _ => h3 j hj, fun j hj _ => h4 j hj⟩
  | releaseC i => exact ⟨_, k, cps, ws, rfl, releaseC_good h i, fun j ⟨a, a1, a2, a3⟩ hr => ⟨a, by simp only; rw [List.getElem?_set_ne hr]; exact a1, a2, a3⟩, fun j hj _ => hj⟩
  | releaseW i => exact ⟨_, k, cps, ws, rfl, releaseW_good h i, fun j hj _ => hj, fun j ⟨a, a1, a2, a3⟩ hr => ⟨a, by simp only; rw [List.getElem?_set_ne hr]; exact a1, a2, a3⟩⟩
  | writeC i row v =>
    obtain ⟨a, ha⟩ := held_of_shownC hop
    obtain ⟨r, cps', h1, h2, h3, h4, h5, h6, -⟩ := writeC_good h ha row v
    exact ⟨r, k, cps', ws, h1, h2, fun j ⟨a, a1, a2, a3⟩ _ => ⟨a, h5 ▸ a1, h3 ▸ a2, a3⟩, fun j ⟨a, a1, a2, a3⟩ _ => ⟨a, h6 ▸ a1, h4 ▸ a2, a3⟩⟩
  | writeW i row v =>
    obtain ⟨a, ha⟩ := held_of_shownW hop.1
    obtain ⟨r, ws', h1, h2, h3, h4, h5, h6, -⟩ := writeW_good h ha row hop.2
    exact ⟨r, k, cps, ws', h1, h2, fun j ⟨a, a1, a2, a3⟩ _ => ⟨a, h5 ▸ a1, h3 ▸ a2, a3⟩, fun j ⟨a, a1, a2, a3⟩ _ => ⟨a, h6 ▸ a1, h4 ▸ a2, a3⟩⟩
  | evaluate =>
    refine ⟨⟨s, false⟩, k, cps, ws, ?_, h, fun j hj _ => hj, fun j hj _ => hj⟩
    simp [step, h.sync.live.core, State.coordinates, State.current, h.sync.live.this, h.sync.live.block]

theorem Good.rows {count : P → ℕ} {s : State K P} {c : ℕ} {k : Core P} {cps : List (List K)} {ws : List K} (h : Good count s c k cps ws) : s.coordinates = some (List.zipWith weigh cps ws) := by
  simp [State.coordinates, State.current, h.sync.live.core, h.sync.live.this, h.sync.live.block]

theorem Good.rows_length {count : P → ℕ} {s : State K P} {c : ℕ} {k : Core P} {cps : List (List K)} {ws : List K} (h : Good count s c k cps ws) : (List.zipWith weigh cps ws).length = cps.length := by
  simp [h.sync.live.len]

/-- every allowed call is defined and keeps the invariant -/
theorem step_fine {count : P → ℕ} {s : State K P} (h : Fine count s) {op : Op K P} (hop : Spec.Connecting count s op) : ∃ r, step count s op = some r ∧ Fine count r.state := by
  rcases h with h | ⟨c, k, cps, ws, h⟩
  · have hco : s.coordinates = none := by simp [State.coordinates, State.current, h.core]
    cases op with
    | new p cps ws =>
      obtain ⟨s', k', h1, h2⟩ := new_good (s := s) hop.1 hop.2.1 hop.2.2 (fun x hx => by cases h.heldC _ hx) (fun x hx => by cases h.heldW _ hx)
      exact ⟨_, h1, Or.inr ⟨_, _, _, _, h2⟩⟩
    | setProps p =>
      exact ⟨⟨{ s with props := some p }, false⟩, by simp [step, getC, getW, newCore, h.core, h.savedC, h.savedW], Or.inl ⟨h.core, h.savedC, h.savedW, h.heldC, h.heldW⟩⟩
    | setCps cps => obtain ⟨rows, e, -⟩ := hop; rw [hco] at e; cases e
    | setWs ws => obtain ⟨-, rows, e, -⟩ := hop; rw [hco] at e; cases e
    | readC =>
      refine ⟨⟨{ s with heldC := s.heldC ++ [none] }, false⟩, by simp [step, getC, h.core, h.savedC], Or.inl ⟨h.core, h.savedC, h.savedW, fun a ha => ?_, h.heldW⟩⟩
      rcases List.mem_append.mp ha with e | e
      · exact h.heldC a e
      · exact List.mem_singleton.mp e
    | readW =>
      refine ⟨⟨{ s with heldW := s.heldW ++ [none] }, false⟩, by simp [step, getW, h.core, h.savedW], Or.inl ⟨h.core, h.savedC, h.savedW, h.heldC, fun a ha => ?_⟩⟩
      rcases List.mem_append.mp ha with e | e
      · exact h.heldW a e
      · exact List.mem_singleton.mp e
    | releaseC j => exact ⟨_, rfl, Or.inl ⟨h.core, h.savedC, h.savedW, fun a ha => (List.mem_or_eq_of_mem_set ha).elim (h.heldC a) id, h.heldW⟩⟩
    | releaseW j => exact ⟨_, rfl, Or.inl ⟨h.core, h.savedC, h.savedW, h.heldC, fun a ha => (List.mem_or_eq_of_mem_set ha).elim (h.heldW a) id⟩⟩
    | writeC j row v => obtain ⟨a, ha⟩ := held_of_shownC hop; cases h.heldC _ (List.mem_of_getElem? ha)
    | writeW j row v => obtain ⟨a, ha⟩ := held_of_shownW hop.1; cases h.heldW _ (List.mem_of_getElem? ha)
    | refine result => exact ⟨⟨s, true⟩, by simp [step, h.core], Or.inl h⟩
    | evaluate => exact ⟨⟨s, true⟩, by simp [step, h.core], Or.inl h⟩
  · have len : ∀ rows, s.coordinates = some rows → rows.length = cps.length := fun rows e => by rw [h.rows] at e; cases e; exact h.rows_length
    by_cases hch : Spec.Changes op
    · cases op with
      | new p cps1 ws1 =>
        obtain ⟨s', k', h1, h2⟩ := new_good (s := s) hop.1 hop.2.1 hop.2.2
          (fun x hx => by obtain ⟨d, l, l2, -⟩ := h.sync.lastC hx; exact ⟨⟨d, l⟩, l2⟩) (fun x hx => by obtain ⟨d, l, l2, -⟩ := h.sync.lastW hx; exact ⟨⟨d, l⟩, l2⟩)
        exact ⟨_, h1, Or.inr ⟨_, _, _, _, h2⟩⟩
      | setProps p =>
        obtain ⟨s', c', k', h1, h2⟩ := setProps_good h hop.1 (by rw [← hop.2 _ h.rows, h.rows_length])
        exact ⟨_, h1, Or.inr ⟨_, _, _, _, h2⟩⟩
      | setCps cps1 =>
        obtain ⟨rows, e, e2⟩ := hop
        obtain ⟨s', c', k', x, h1, h2, -⟩ := setCps_good h (e2.trans (len rows e))
        exact ⟨_, h1, Or.inr ⟨_, _, _, _, h2⟩⟩
      | setWs ws1 =>
        obtain ⟨e0, rows, e, e2⟩ := hop
        obtain ⟨s', c', k', x, h1, h2, -⟩ := setWs_good h (e2.trans (len rows e)) e0
        exact ⟨_, h1, Or.inr ⟨_, _, _, _, h2⟩⟩
      | refine result =>
        rcases result with _ | ⟨p, cps1, ws1⟩
        · obtain ⟨s', h1, h2⟩ := drop_good h hop
          exact ⟨_, h1, Or.inr ⟨_, _, _, _, h2⟩⟩
        · obtain ⟨s', k', h1, h2⟩ := refine_good h hop.1 hop.2.1 hop.2.2.1 hop.2.2.2.1 hop.2.2.2.2
          exact ⟨_, h1, Or.inr ⟨_, _, _, _, h2⟩⟩
      | _ => exact absurd hch (by simp [Spec.Changes])
    · obtain ⟨r, k', cps', ws', h1, h2, -⟩ := stays h hop hch
      exact ⟨r, h1, Or.inr ⟨_, _, _, _, h2⟩⟩

theorem run_cons (count : P → ℕ) (s : State K P) (op : Op K P) (ops : List (Op K P)) : run count s (op :: ops) = (step count s op).bind fun r => run count r.state ops := by
  simp only [run, List.foldlM_cons]
  cases step count s op <;> rfl

theorem run_fine {count : P → ℕ} (ops : List (Op K P)) {s : State K P} (h : Fine count s) (hops : Spec.AllConnecting count s ops) : ∃ s', run count s ops = some s' ∧ Fine count s' := by
  induction ops generalizing s with
  | nil => exact ⟨s, rfl, h⟩
  | cons op ops ih =>
    obtain ⟨r, h1, h2⟩ := step_fine h hops.1
    obtain ⟨s', h3, h4⟩ := ih h2 (hops.2 r h1)
    exact ⟨s', by rw [run_cons, h1]; exact h3, h4⟩

theorem run_stays {count : P → ℕ} (ops : List (Op K P)) {s : State K P} {c : ℕ} {k : Core P} {cps : List (List K)} {ws : List K} (h : Good count s c k cps ws) {i j : ℕ} (hi : AttC s i) (hj : AttW s j)
    (hops : Spec.AllConnecting count s ops) (hk : ∀ op ∈ ops, ¬ Spec.Changes op ∧ ¬ Spec.ReleasesC i op ∧ ¬ Spec.ReleasesW j op) :
    ∃ s' k' cps' ws', run count s ops = some s' ∧ Good count s' c k' cps' ws' ∧ AttC s' i ∧ AttW s' j := by
  induction ops generalizing s k cps ws with
  | nil => exact ⟨s, k, cps, ws, rfl, h, hi, hj⟩
  | cons op ops ih =>
    obtain ⟨a1, a2, a3⟩ := hk op (by simp)
    obtain ⟨r, k', cps', ws', h1, h2, h3, h4⟩ := stays h hops.1 a1
    obtain ⟨s', k2, cps2, ws2, b1, b2⟩ := ih h2 (h3 i hi a2) (h4 j hj a3) (hops.2 r h1) fun o ho => hk o (by simp [ho])
    exact ⟨s', k2, cps2, ws2, by rw [run_cons, h1]; exact b1, b2⟩

theorem shows {count : P → ℕ} {s : State K P} {c : ℕ} {k : Core P} {cps : List (List K)} {ws : List K} (h : Good count s c k cps ws) {i j : ℕ} (hi : AttC s i) (hj : AttW s j) :
    shownC s i = some cps ∧ shownW s j = some ws ∧ Spec.EvaluatedWith s cps ws := by
  obtain ⟨a, a1, a2, a3⟩ := hi
  obtain ⟨b, b1, b2, b3⟩ := hj
  rcases h.sync.saved with ⟨e1, e2⟩ | ⟨a', b', e1, e2, e3, e4, e5⟩
  · rw [a2] at e1; cases e1
  · rw [a2] at e1; cases e1
    rw [b2] at e2; cases e2
    exact ⟨by simp [shownC, a1, e3], by simp [shownW, b1, e4], h.sync.live.len, h.rows⟩

theorem start_fine (count : P → ℕ) : Fine count ({} : State K P) := Or.inl ⟨rfl, rfl, rfl, by simp, by simp⟩

/-! ### Results -/

/-- C138 (memory): if the arrays are released before degrees or knots are assigned and before refinement, no call of any history writes to freed memory. (`none` is a write to freed memory.) Partial: without
this `refined_control_points_violates`. -/
theorem rational_calls_defined_partial (count : P → ℕ) (ops : List (Op K P)) (h : Spec.AllConnecting count ({} : State K P) ops) : ∃ s, run count ({} : State K P) ops = some s :=
  (run_fine ops (start_fine count) h).imp fun _ h => h.1

/-- C138 (arrays): after any such history, arrays that are read show together exactly the control points and weights the spline is evaluated with, and go on to do so, whatever is read, released and
written in whichever order through these and other arrays, until the spline is assigned to or refined. Writing a row of one of them does not raise, replaces this row and no other, and leaves
the other array as it is. -/
theorem arrays_reach_partial (count : P → ℕ) (ops ops' : List (Op K P)) (s s1 s2 s3 : State K P) (h : Spec.AllConnecting count ({} : State K P) ops) (hs : run count {} ops = some s) (hc : s.core ≠ none)
    (h1 : (step count s .readC).map Res.state = some s1) (h2 : (step count s1 .readW).map Res.state = some s2) (h' : Spec.AllConnecting count s2 ops')
    (hk : ∀ op ∈ ops', ¬ Spec.Changes op ∧ ¬ Spec.ReleasesC s.heldC.length op ∧ ¬ Spec.ReleasesW s.heldW.length op) (hs3 : run count s2 ops' = some s3) :
    ∃ cps ws, shownC s3 s.heldC.length = some cps ∧ shownW s3 s.heldW.length = some ws ∧ Spec.EvaluatedWith s3 cps ws ∧
      (∀ row < cps.length, ∀ v, ∃ s4, step count s3 (.writeC s.heldC.length row v) = some ⟨s4, false⟩ ∧
        shownC s4 s.heldC.length = some (cps.set row v) ∧ shownW s4 s.heldW.length = some ws ∧ Spec.EvaluatedWith s4 (cps.set row v) ws) ∧
      ∀ row < ws.length, ∀ v ≠ 0, ∃ s4, step count s3 (.writeW s.heldW.length row v) = some ⟨s4, false⟩ ∧
        shownC s4 s.heldC.length = some cps ∧ shownW s4 s.heldW.length = some (ws.set row v) ∧ Spec.EvaluatedWith s4 cps (ws.set row v) := by
  obtain ⟨s0, e0, f0⟩ := run_fine ops (start_fine count) h
  rw [hs] at e0; cases e0
  rcases f0 with f0 | ⟨c, k, cps0, ws0, g0⟩
  · exact absurd f0.core hc
  obtain ⟨t1, k1, a1, a2, a3, a4, a5, -, -⟩ := readC_good g0
  rw [a1] at h1; cases h1
  obtain ⟨t2, k2, b1, b2, b3, b4, b5, b6, -⟩ := readW_good a2
  rw [b1] at h2; cases h2
  obtain ⟨t3, k3, cps, ws, d1, d2, d3, d4⟩ := run_stays ops' b2 (b6 _ a3) (by rw [a5] at b3; exact b3) h' hk
  rw [hs3] at d1; cases d1
  obtain ⟨x1, x2, x3⟩ := shows d2 d3 d4
  refine ⟨cps, ws, x1, x2, x3, fun row hrow v => ?_, fun row hrow v hv => ?_⟩
  · obtain ⟨a, y1, y2, y3⟩ := id d3
    obtain ⟨r, cps', z1, z2, z3, z4, z5, z6, z7⟩ := writeC_good d2 y1 row v
    obtain ⟨z8, z9⟩ := z7 d3 hrow
    obtain ⟨r, rb⟩ := r
    simp only at z8 z2 z3 z4 z5 z6
    subst z8 z9
    obtain ⟨b, w1, w2, w3⟩ := d4
    obtain ⟨u1, u2, u3⟩ := shows z2 (i := s.heldC.length) (j := s.heldW.length) ⟨a, z5 ▸ y1, z3 ▸ y2, y3⟩ ⟨b, z6 ▸ w1, z4 ▸ w2, w3⟩
    exact ⟨r, z1, u1, u2, u3⟩
  · obtain ⟨b, y1, y2, y3⟩ := id d4
    obtain ⟨r, ws', z1, z2, z3, z4, z5, z6, z7⟩ := writeW_good d2 y1 row hv
    obtain ⟨z8, z9⟩ := z7 d4 hrow
    obtain ⟨r, rb⟩ := r
    simp only at z8 z2 z3 z4 z5 z6
    subst z8 z9
    obtain ⟨a, w1, w2, w3⟩ := d3
    obtain ⟨u1, u2, u3⟩ := shows z2 (i := s.heldC.length) (j := s.heldW.length) ⟨a, z5 ▸ w1, z3 ▸ w2, w3⟩ ⟨b, z6 ▸ y1, z4 ▸ y2, y3⟩
    exact ⟨r, z1, u1, u2, u3⟩

/-! ### Evaluation -/

/-- the core has coordinates -/
structure Owns (s : State K P) : Prop where
  core : ∀ c, s.core = some c → c < s.cores.length
  block : ∀ k ∈ s.cores, k.block < s.blocks.length

theorem getPointers_owns {s : State K P} (h : Owns s) (c : ℕ) (k : Core P) (hk : k.block < s.blocks.length) : Owns (getPointers s c k).1 := by
  unfold getPointers
  simp only
  split
  · exact h
  · refine ⟨fun d hd => by simpa using h.core d hd, fun k' hk' => ?_⟩
    rcases List.mem_or_eq_of_mem_set hk' with e | e
    · exact h.block k' e
    · rw [e]; exact hk

theorem prepare_owns {s s' : State K P} (h : Owns s) (hp : prepare s = some s') : Owns s' := by
  unfold prepare at hp
  split at hp
  · cases hp; exact h
  · rename_i c hc
    obtain ⟨k, hk, hp⟩ := Option.bind_eq_some_iff.mp hp
    have hkb := h.block k (List.mem_of_getElem? hk)
    obtain ⟨rows, hr, hp⟩ := Option.map_eq_some_iff.mp hp
    split at hp <;> subst hp
    · have := getPointers_owns h c k hkb
      exact ⟨this.core, this.block⟩
    · have := getPointers_owns (s := { s with cmem := s.cmem ++ [rows.map project], wmem := s.wmem ++ [rows.map Prod.snd] }) ⟨h.core, h.block⟩ c k hkb
      exact ⟨this.core, this.block⟩

theorem getC_owns {s s' : State K P} (h : Owns s) (hp : getC s = some s') : Owns s' := by
  unfold getC at hp
  split at hp
  · exact prepare_owns h hp
  · cases hp; exact h

theorem getW_owns {s s' : State K P} (h : Owns s) (hp : getW s = some s') : Owns s' := by
  unfold getW at hp
  split at hp
  · exact prepare_owns h hp
  · cases hp; exact h

theorem newCore_owns {count : P → ℕ} {s : State K P} {r : Res K P} (h : Owns s) (hp : newCore count s = some r) : Owns r.state := by
  unfold newCore at hp
  split at hp
  · obtain ⟨cps, -, hp⟩ := Option.bind_eq_some_iff.mp hp
    obtain ⟨ws, -, hp⟩ := Option.map_eq_some_iff.mp hp
    simp only at hp
    split at hp
    · subst hp; exact ⟨h.core, h.block⟩
    split at hp <;> subst hp
    · exact ⟨h.core, h.block⟩
    · refine ⟨fun c hc => ?_, fun k hk => ?_⟩
      · simp only [Option.some.injEq] at hc; simp [← hc]
      · simp only [List.length_append, List.length_singleton]
        rcases List.mem_append.mp hk with e | e
        · exact (h.block k e).trans (by omega)
        · rw [List.mem_singleton.mp e]; simp
  · cases hp; exact h

theorem step_owns {count : P → ℕ} {s : State K P} {op : Op K P} {r : Res K P} (h : Owns s) (hp : step count s op = some r) : Owns r.state := by
  cases op with
  | new p cps ws =>
    obtain ⟨r', h1, h2⟩ := Option.map_eq_some_iff.mp hp
    have := newCore_owns (s := { s with core := none, cmem := s.cmem ++ [cps], wmem := s.wmem ++ [ws], savedC := some ⟨s.cmem.length, none, true⟩, savedW := some ⟨s.wmem.length, none, true⟩, props := some p })
      ⟨by simp, h.block⟩ h1
    split at h2 <;> subst h2
    · exact ⟨by simp, h.block⟩
    · exact this
  | setProps p =>
    obtain ⟨s1, h1, hp⟩ := Option.bind_eq_some_iff.mp hp
    obtain ⟨s2, h2, hp⟩ := Option.bind_eq_some_iff.mp hp
    have g1 := getC_owns (s := { s with props := some p }) ⟨h.core, h.block⟩ h1
    exact newCore_owns (getW_owns g1 h2) hp
  | setCps cps =>
    simp only [step] at hp
    split at hp
    · split at hp
      · cases hp; exact h
      · obtain ⟨s1, h1, hp⟩ := Option.bind_eq_some_iff.mp hp
        refine newCore_owns (getW_owns ?_ h1) hp
        split <;> exact ⟨h.core, h.block⟩
    · obtain ⟨s1, h1, hp⟩ := Option.bind_eq_some_iff.mp hp
      exact newCore_owns (getW_owns (by exact ⟨h.core, h.block⟩) h1) hp
  | setWs ws =>
    simp only [step] at hp
    split at hp
    · split at hp
      · cases hp; exact h
      · obtain ⟨s1, h1, hp⟩ := Option.bind_eq_some_iff.mp hp
        refine newCore_owns (getC_owns ?_ h1) hp
        split <;> exact ⟨h.core, h.block⟩
    · obtain ⟨s1, h1, hp⟩ := Option.bind_eq_some_iff.mp hp
      exact newCore_owns (getC_owns (by exact ⟨h.core, h.block⟩) h1) hp
  | readC =>
    obtain ⟨s1, h1, rfl⟩ := Option.map_eq_some_iff.mp hp
    have := getC_owns h h1
    exact ⟨this.core, this.block⟩
  | readW =>
    obtain ⟨s1, h1, rfl⟩ := Option.map_eq_some_iff.mp hp
    have := getW_owns h h1
    exact ⟨this.core, this.block⟩
  | releaseC j => cases hp; exact ⟨h.core, h.block⟩
  | releaseW j => cases hp; exact ⟨h.core, h.block⟩
  | writeC j row v =>
    obtain ⟨a, -, hp⟩ := Option.bind_eq_some_iff.mp hp
    obtain ⟨cps, -, hp⟩ := Option.bind_eq_some_iff.mp hp
    split at hp
    · cases hp; exact h
    simp only at hp
    split at hp
    · cases hp; exact ⟨h.core, h.block⟩
    split at hp
    · cases hp; exact ⟨h.core, h.block⟩
    split at hp
    · cases hp; exact ⟨h.core, fun k hk => by simpa using h.block k hk⟩
    · cases hp
  | writeW j row v =>
    obtain ⟨a, -, hp⟩ := Option.bind_eq_some_iff.mp hp
    obtain ⟨ws, -, hp⟩ := Option.bind_eq_some_iff.mp hp
    split at hp
    · cases hp; exact h
    simp only at hp
    split at hp
    · cases hp; exact ⟨h.core, h.block⟩
    split at hp
    · cases hp; exact ⟨h.core, h.block⟩
    split at hp
    · cases hp; exact ⟨h.core, h.block⟩
    split at hp
    · cases hp; exact ⟨h.core, fun k hk => by simpa using h.block k hk⟩
    · cases hp
  | refine result =>
    simp only [step] at hp
    split at hp
    · cases hp; exact h
    · obtain ⟨k, hk, rfl⟩ := Option.map_eq_some_iff.mp hp
      split
      · exact ⟨h.core, h.block⟩
      · refine ⟨fun c hc => by simpa using h.core c hc, fun k' hk' => ?_⟩
        simp only [List.length_append, List.length_singleton]
        rcases List.mem_or_eq_of_mem_set hk' with e | e
        · exact (h.block k' e).trans (by omega)
        · simp [e]
  | evaluate =>
    simp only [step] at hp
    split at hp
    · cases hp; exact h
    · obtain ⟨_, -, rfl⟩ := Option.map_eq_some_iff.mp hp
      exact h

theorem run_owns {count : P → ℕ} (ops : List (Op K P)) {s s' : State K P} (h : Owns s) (hr : run count s ops = some s') : Owns s' := by
  induction ops generalizing s with
  | nil => cases hr; exact h
  | cons op ops ih =>
    rw [run_cons] at hr
    obtain ⟨r, h1, h2⟩ := Option.bind_eq_some_iff.mp hr
    exact ih (step_owns h h1) h2

/-- C138 (evaluation): a rational spline owns its coordinates. After any history without a write to freed memory it is evaluated without reading freed memory, whatever arrays were released, and a spline
that has a core does not raise. (Unlike the other splines: C117.) -/
theorem rational_evaluable (count : P → ℕ) (ops : List (Op K P)) (s : State K P) (h : run count {} ops = some s) : ∃ r, step count s .evaluate = some r ∧ r.state = s ∧ (s.core ≠ none → r.raised = false) := by
  have g : Owns s := run_owns ops ⟨by simp, by simp⟩ h
  rcases hc : s.core with _ | c
  · exact ⟨⟨s, true⟩, by simp [step, hc], rfl, by simp⟩
  · have h1 := g.core c hc
    have h2 := g.block _ (List.getElem_mem h1)
    exact ⟨⟨s, false⟩, by simp [step, hc, State.coordinates, State.current, List.getElem?_eq_getElem h1, List.getElem?_eq_getElem h2], rfl, by simp⟩

/-- `Spec.AllConnecting` for concrete histories -/
theorem allConnecting_cons {count : P → ℕ} {s : State K P} {op : Op K P} {ops : List (Op K P)} (h1 : Spec.Connecting count s op) (h : (step count s op).isSome)
    (h2 : Spec.AllConnecting count ((step count s op).get h).state ops) : Spec.AllConnecting count s (op :: ops) :=
  ⟨h1, fun r e => by have : (step count s op).get h = r := by simp [e]
                     exact this ▸ h2⟩

/-- control points of the examples (a property is the number of control points) -/
def exCps : List (List ℚ) := [[1, 0], [0, 1]]

def exWs : List ℚ := [1, 2]

/-- Non-vacuity: arrays are read and written, new control points assigned, the old array is written to, new arrays are read. -/
def exOps : List (Op ℚ ℕ) := [.new 2 exCps exWs, .readC, .readW, .writeW 0 1 4, .setCps [[3, 3], [4, 4]], .writeC 0 0 [7, 7]]

theorem exOps_ok : Spec.AllConnecting id ({} : State ℚ ℕ) exOps := by
  unfold exOps
  refine allConnecting_cons ⟨rfl, rfl, by decide +kernel⟩ (by decide +kernel) ?_
  refine allConnecting_cons trivial (by decide +kernel) ?_
  refine allConnecting_cons trivial (by decide +kernel) ?_
  refine allConnecting_cons ⟨by decide +kernel, by decide +kernel⟩ (by decide +kernel) ?_
  refine allConnecting_cons ⟨_, (Option.some_get (by decide +kernel)).symm, by decide +kernel⟩ (by decide +kernel) ?_
  exact allConnecting_cons (by show shownC _ _ ≠ none; decide +kernel) (by decide +kernel) trivial

/-- Non-vacuity of `rational_calls_defined_partial` -/
example : ∃ s, run id ({} : State ℚ ℕ) exOps = some s := rational_calls_defined_partial id exOps exOps_ok

/-- Non-vacuity of `rational_evaluable`: the array is kept over refinement. -/
example : ∃ s, run id ({} : State ℚ ℕ) [.new 2 exCps exWs, .readC, .refine (some (3, [[1, 0], [1, 1], [0, 1]], [1, 1, 2]))] = some s ∧ ∃ r, step id s .evaluate = some r ∧ r.raised = false := by
  obtain ⟨s, h⟩ := Option.isSome_iff_exists.mp (show (run id ({} : State ℚ ℕ) [.new 2 exCps exWs, .readC, .refine (some (3, [[1, 0], [1, 1], [0, 1]], [1, 1, 2]))]).isSome by decide +kernel)
  obtain ⟨r, h1, -, h3⟩ := rational_evaluable id _ s h
  refine ⟨s, h, r, h1, h3 ?_⟩
  have : ((run id ({} : State ℚ ℕ) [.new 2 exCps exWs, .readC, .refine (some (3, [[1, 0], [1, 1], [0, 1]], [1, 1, 2]))]).map State.core) = some (some 0) := by decide +kernel
  rw [h] at this
  simpa using (Option.some.inj this).trans_ne (by simp)

/-- the state after `exOps`, and after reading both arrays -/
def exState (more : List (Op ℚ ℕ)) : State ℚ ℕ := (run id {} (exOps ++ more)).getD {}

/-- Non-vacuity of `arrays_reach_partial`: `exOps`, then the arrays are read and a row of each is written. -/
example : ∃ cps ws, shownC (exState [.readC, .readW, .writeC 1 0 [9, 9], .writeW 1 0 3]) 1 = some cps ∧ shownW (exState [.readC, .readW, .writeC 1 0 [9, 9], .writeW 1 0 3]) 1 = some ws ∧
    Spec.EvaluatedWith (exState [.readC, .readW, .writeC 1 0 [9, 9], .writeW 1 0 3]) cps ws := by
  obtain ⟨cps, ws, h1, h2, h3, -⟩ := arrays_reach_partial id exOps [.writeC 1 0 [9, 9], .writeW 1 0 3] (exState []) (exState [.readC]) (exState [.readC, .readW])
    (exState [.readC, .readW, .writeC 1 0 [9, 9], .writeW 1 0 3]) exOps_ok (by decide +kernel) (by decide +kernel) (by decide +kernel) (by decide +kernel)
    (allConnecting_cons (by show shownC _ _ ≠ none; decide +kernel) (by decide +kernel) (allConnecting_cons ⟨by decide +kernel, by decide +kernel⟩ (by decide +kernel) trivial))
    (by
      have hC : (exState []).heldC.length = 1 := by decide +kernel
      have hW : (exState []).heldW.length = 1 := by decide +kernel
      intro op hop
      simp only [List.mem_cons, List.not_mem_nil, or_false] at hop
      rcases hop with rfl | rfl <;> simp [Spec.Changes, Spec.ReleasesC, Spec.ReleasesW])
    (by decide +kernel)
  exact ⟨cps, ws, h1, h2, h3⟩

/-- and these are the rows -/
example : shownC (exState [.readC, .readW, .writeC 1 0 [9, 9], .writeW 1 0 3]) 1 = some [[9, 9], [4, 4]] ∧ shownW (exState [.readC, .readW, .writeC 1 0 [9, 9], .writeW 1 0 3]) 1 = some [3, 4] ∧
    (exState [.readC, .readW, .writeC 1 0 [9, 9], .writeW 1 0 3]).coordinates = some [([27, 27], 3), ([16, 16], 4)] := by decide +kernel

/-- Violation (memory): an array of control points that the user keeps while the spline is refined writes to freed memory. -/
theorem refined_control_points_violates : ∃ ops : List (Op ℚ ℕ), (run id ({} : State ℚ ℕ) ops).isSome ∧ run id ({} : State ℚ ℕ) (ops ++ [.writeC 0 0 [5, 5]]) = none :=
  ⟨[.new 2 exCps exWs, .readC, .refine (some (3, [[1, 0], [1, 1], [0, 1]], [1, 1, 2]))], by decide +kernel, by decide +kernel⟩

/-- Violation (memory): so does an array of weights. -/
theorem refined_weights_violates : ∃ ops : List (Op ℚ ℕ), (run id ({} : State ℚ ℕ) ops).isSome ∧ run id ({} : State ℚ ℕ) (ops ++ [.writeW 0 0 5]) = none :=
  ⟨[.new 2 exCps exWs, .readW, .refine (some (3, [[1, 0], [1, 1], [0, 1]], [1, 1, 2]))], by decide +kernel, by decide +kernel⟩

/-- Violation (memory): even without old arrays, refining and back to the same number of control points makes the arrays that are read afterwards write to freed memory. -/
theorem refined_back_violates : ∃ (ops : List (Op ℚ ℕ)) (s : State ℚ ℕ), run id {} ops = some s ∧ s.heldC.all Option.isNone ∧ s.heldW.all Option.isNone ∧ run id s [.readC, .writeC 1 0 [5, 5]] = none :=
  ⟨[.new 2 exCps exWs, .readC, .releaseC 0, .refine (some (3, [[1, 0], [1, 1], [0, 1]], [1, 1, 2])), .refine (some (2, exCps, exWs))],
    (run id {} [.new 2 exCps exWs, .readC, .releaseC 0, .refine (some (3, [[1, 0], [1, 1], [0, 1]], [1, 1, 2])), .refine (some (2, exCps, exWs))]).getD {}, by decide +kernel, by decide +kernel, by decide +kernel,
    by decide +kernel⟩

/-- Violation: after an assignment of degrees that was rejected and a reading of the control points the array of weights cannot be written to. -/
theorem rejected_degrees_violates : ∃ s s' : State ℚ ℕ, run id {} [.new 2 exCps exWs, .readW, .setProps 3, .readC, .readW] = some s ∧ step id s (.writeW 1 0 5) = some ⟨s', true⟩ ∧
    (∃ t, run id {} [.new 2 exCps exWs, .readW, .readC, .readW, .writeW 1 0 5] = some t ∧ shownW t 1 = some [5, 2]) :=
  ⟨(run id {} [.new 2 exCps exWs, .readW, .setProps 3, .readC, .readW]).getD {}, (run id {} [.new 2 exCps exWs, .readW, .setProps 3, .readC, .readW]).getD {}, by decide +kernel, by decide +kernel,
    (run id {} [.new 2 exCps exWs, .readW, .readC, .readW, .writeW 1 0 5]).getD {}, by decide +kernel, by decide +kernel⟩

/-- Violation: new weights that are assigned after the spline was refined are lost. -/
theorem weights_lost_violates : ∃ s : State ℚ ℕ, run id {} [.new 2 exCps exWs, .refine none, .setWs [5, 5], .readW] = some s ∧ shownW s 0 = some [1, 2] :=
  ⟨(run id {} [.new 2 exCps exWs, .refine none, .setWs [5, 5], .readW]).getD {}, by decide +kernel, by decide +kernel⟩

end Splinepy.RationalArrays
