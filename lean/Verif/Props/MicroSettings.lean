import Verif.Model.MicroSettings
import Mathlib.Data.List.Perm.Basic
import Mathlib.Data.List.Induction
import Mathlib.Tactic.ByContra

/-!
C127: the settings of microstructures.
-/
namespace Splinepy.MicroSettings

/-! ### Specification -/
namespace Spec
variable {D E : Type}

/-- The last value that was assigned in a history; `f` picks the assignments of one setting of one microstructure. -/
def last {α : Type} (f : Op D E → Option α) (ops : List (Op D E)) : Option α := (ops.filterMap f).getLast?

/-- A spline assigned to `deformation_function` of microstructure `i`. -/
def deformation (i : ℕ) : Op D E → Option D
  | .setDeformation j (some d) => if j = i then some d else none
  | _ => none

/-- A tiling assigned to microstructure `i`, as a function of the number of directions: an integer holds for all directions. -/
def tiling (lists : ℕ → List ℤ) (i : ℕ) : Op D E → Option (ℕ → List ℤ)
  | .setTiling j (.int n) => if j = i then some (fun p => List.replicate p n) else none
  | .setTiling j (.list k) => if j = i then some (fun _ => lists k) else none
  | _ => none

/-- The tile made of a value: an object is a tile, splines of one dimension make a tile of this dimension. -/
def tileOf : TileValue E → Option (Tile E)
  | .object t => some t
  | .splines [] => none
  | .splines (d :: ds) => match d with
    | none => none
    | some m => if ∀ x ∈ ds, x = some m then some ⟨true, some m, none⟩ else none

/-- A tile assigned to microstructure `i`. -/
def microtile (i : ℕ) : Op D E → Option (Tile E)
  | .setMicrotile j v => if j = i then tileOf v else none
  | _ => none

/-- A parametrization function assigned to microstructure `i`. -/
def parametrization (i : ℕ) : Op D E → Option (E → Bool)
  | .setParametrization j (some f) => if j = i then some f else none
  | _ => none

/-- A sensitivity function, or `None`, assigned to microstructure `i`. -/
def sensitivity (i : ℕ) : Op D E → Option (Option (E → Bool))
  | .setSensitivity j .nothing => if j = i then some none else none
  | .setSensitivity j (.function g) => if j = i then some (some g) else none
  | _ => none

/-- The settings fit together: the tile can be composed with the deformation function, the tiling has an entry per direction, and the functions of the user
give arrays of the right kind at the evaluation points of the tile; sensitivities need a parametrization. -/
structure Fits (paraDim : D → ℕ) (x : Settings D E) : Prop where
  canCreate : x.microtile.hasCreate = true
  dim : x.microtile.dim = some (paraDim x.deformation)
  tiling : x.tiling.length = paraDim x.deformation
  functions : ∀ f, x.parametrization = some f →
    ∃ e, x.microtile.points = some e ∧ f e = true ∧ ∀ g, x.sensitivity = some g → g e = true
  sensitivity : x.sensitivity ≠ none → x.parametrization ≠ none

/-- The settings of microstructure `i` are complete after a history, and are `x`, for `p` directions. -/
structure Latest (normalise : D → D) (lists : ℕ → List ℤ) (ops : List (Op D E)) (i p : ℕ) (x : Settings D E) : Prop where
  deformation : ∃ d, last (deformation i) ops = some d ∧ x.deformation = normalise d
  tiling : ∃ t, last (Spec.tiling lists i) ops = some t ∧ x.tiling = t p
  microtile : last (Spec.microtile i) ops = some x.microtile
  parametrization : x.parametrization = last (Spec.parametrization i) ops
  sensitivity : x.sensitivity = (last (Spec.sensitivity i) ops).join

end Spec

section
variable {D E : Type} (paraDim : D → ℕ) (spans : D → List ℕ) (normalise : D → D)

theorem last_append {α : Type} (f : Op D E → Option α) (ops : List (Op D E)) (op : Op D E) :
    Spec.last f (ops ++ [op]) = (f op).or (Spec.last f ops) := by
  unfold Spec.last
  rw [List.filterMap_append]
  cases h : f op with
  | none => simp [h]
  | some v => simp [h]

theorem last_mem {α : Type} {f : Op D E → Option α} {ops : List (Op D E)} {v : α} (h : Spec.last f ops = some v) : ∃ op ∈ ops, f op = some v := by
  have := List.mem_of_getLast? h
  simpa using this

theorem userTile_eq (dims : List (Option ℕ)) : userTile (E := E) dims = Spec.tileOf (.splines dims) := by
  cases dims with
  | nil => rfl
  | cons d ds =>
    cases d with
    | none => rfl
    | some m => simp [userTile, Spec.tileOf, List.all_eq_true]

/-- What the check does to an object: at most an integer tiling becomes a list. -/
theorem sanity_object (lists : ℕ → List ℤ) (o : Obj D E) :
    (sanityCheck paraDim lists o).1 = o ∨
      ∃ d n, o.deformation = some d ∧ o.tiling = some (.int n) ∧
        (sanityCheck paraDim lists o).1 = { o with tiling := some (.own (List.replicate (paraDim d) n)) } := by
  obtain ⟨de, ti, t, f, g⟩ := o
  cases de with
  | none => left; rfl
  | some d =>
    cases t with
    | none => left; rfl
    | some t =>
      cases ti with
      | none => left; rfl
      | some ti =>
        obtain ⟨c, m, e⟩ := t
        cases c with
        | false => left; rfl
        | true =>
          cases m with
          | none => left; rfl
          | some m =>
            by_cases hm : paraDim d = m
            · cases ti with
              | int n =>
                right
                refine ⟨d, n, rfl, rfl, ?_⟩
                simp only [sanityCheck, hm, if_true]
                split <;> [split; skip] <;> rfl
              | shared k =>
                left
                simp only [sanityCheck, hm, if_true]
                split <;> [split; skip] <;> rfl
              | own l =>
                left
                simp only [sanityCheck, hm, if_true]
                split <;> [split; skip] <;> rfl
            · left; simp [sanityCheck, hm]

/-- The check does not look at anything but the object: functions and tile stay. -/
theorem sanity_rest (lists : ℕ → List ℤ) (o : Obj D E) :
    (sanityCheck paraDim lists o).1.deformation = o.deformation ∧ (sanityCheck paraDim lists o).1.microtile = o.microtile ∧
      (sanityCheck paraDim lists o).1.parametrization = o.parametrization ∧ (sanityCheck paraDim lists o).1.sensitivity = o.sensitivity := by
  rcases sanity_object paraDim lists o with h | ⟨d, n, _, _, h⟩ <;> rw [h] <;> exact ⟨rfl, rfl, rfl, rfl⟩

/-- The stored tiling stands for the tiling `f` (a function of the number of directions), if there are `p` directions. -/
def Stands (lists : ℕ → List ℤ) (p : ℕ) (f : ℕ → List ℤ) : Tiling → Prop
  | .int n => f = fun q => List.replicate q n
  | t => f p = entries lists t

/-- The last values assigned to the settings of a microstructure. -/
structure Given (D E : Type) where
  deformation : Option D
  microtile : Option (Tile E)
  parametrization : Option (E → Bool)
  sensitivity : Option (E → Bool)
  tiling : Option (ℕ → List ℤ)

/-- The last values of a history. -/
def given (lists : ℕ → List ℤ) (i : ℕ) (ops : List (Op D E)) : Given D E :=
  ⟨Spec.last (Spec.deformation i) ops, Spec.last (Spec.microtile i) ops, Spec.last (Spec.parametrization i) ops,
    (Spec.last (Spec.sensitivity i) ops).join, Spec.last (Spec.tiling lists i) ops⟩

/-- The object has the given values. -/
structure Rel (lists : ℕ → List ℤ) (p : ℕ) (g : Given D E) (o : Obj D E) : Prop where
  deformation : o.deformation = g.deformation.map normalise
  microtile : o.microtile = g.microtile
  parametrization : o.parametrization = g.parametrization
  sensitivity : o.sensitivity = g.sensitivity
  tiling : match o.tiling, g.tiling with
    | some t, some f => Stands lists p f t
    | none, none => True
    | _, _ => False

theorem rel_sanity {lists : ℕ → List ℤ} {p : ℕ} {g : Given D E} {o : Obj D E} (h : Rel normalise lists p g o)
    (hp : ∀ d, g.deformation = some d → paraDim (normalise d) = p) : Rel normalise lists p g (sanityCheck paraDim lists o).1 := by
  rcases sanity_object paraDim lists o with e | ⟨d, n, hd, ht, e⟩
  · rw [e]; exact h
  · rw [e]
    refine ⟨h.deformation, h.microtile, h.parametrization, h.sensitivity, ?_⟩
    have h1 := h.tiling
    rw [ht] at h1
    have h2 := h.deformation
    rw [hd] at h2
    cases hg : g.deformation with
    | none => rw [hg] at h2; simp at h2
    | some d' =>
      rw [hg] at h2
      have h3 : d = normalise d' := by simpa using h2
      have h4 := hp d' hg
      cases hf : g.tiling with
      | none => rw [hf] at h1; exact h1.elim
      | some f =>
        rw [hf] at h1
        simp only [Stands, entries] at h1 ⊢
        rw [h1, h3, h4]

theorem put_same (w : World D E) (i : ℕ) (o : Obj D E) : (w.put i o).objs i = o := by simp [World.put]

theorem put_other (w : World D E) {i j : ℕ} (h : j ≠ i) (o : Obj D E) : (w.put i o).objs j = w.objs j := by simp [World.put, h]

/-- A setter keeps all lists. -/
theorem store_lists (w : World D E) (j : ℕ) (o : Obj D E) : (storeAndCheck paraDim w j o).1.lists = w.lists := rfl

theorem store_objs (w : World D E) (i j : ℕ) (o : Obj D E) :
    (storeAndCheck paraDim w j o).1.objs i = if i = j then (sanityCheck paraDim w.lists o).1 else w.objs i := rfl

/-- `create` with knots per span: the lists stay, and the object is the checked one. -/
theorem create_objs (w : World D E) (i j : ℕ) :
    (create paraDim spans w j true).1.lists = w.lists ∧
      (create paraDim spans w j true).1.objs i = if i = j then (sanityCheck paraDim w.lists (w.objs j)).1 else w.objs i := by
  unfold create
  rcases hs : sanityCheck paraDim w.lists (w.objs j) with ⟨o, _ | _ | _⟩
  · exact ⟨rfl, rfl⟩
  · exact ⟨rfl, rfl⟩
  · simp only
    split
    · split
      · exact ⟨rfl, rfl⟩
      · exact ⟨rfl, rfl⟩
    · exact ⟨rfl, rfl⟩

/-- The invariant: after every history the object has the last values. -/
theorem run_rel (lists : ℕ → List ℤ) (i p : ℕ) (hn : ∀ d, paraDim (normalise d) = paraDim d) (ops : List (Op D E))
    (hc : ∀ j, Op.create j false ∉ ops) (hp : ∀ d, Op.setDeformation i (some d) ∈ ops → paraDim d = p) :
    (run paraDim spans normalise (start lists) ops).lists = lists ∧
      Rel normalise lists p (given lists i ops) ((run paraDim spans normalise (start lists) ops).objs i) := by
  induction ops using List.reverseRecOn with
  | nil => exact ⟨rfl, rfl, rfl, rfl, rfl, trivial⟩
  | append_singleton ops op ih =>
    obtain ⟨hl, hr⟩ := ih (fun j h => hc j (List.mem_append_left _ h)) (fun d h => hp d (List.mem_append_left _ h))
    have hstep : run paraDim spans normalise (start lists) (ops ++ [op]) =
        (step paraDim spans normalise (run paraDim spans normalise (start lists) ops) op).1 := by simp [run]
    rw [hstep]
    generalize run paraDim spans normalise (start lists) ops = w at hl hr ⊢
    have hpg : ∀ d, (given lists i (ops ++ [op])).deformation = some d → paraDim (normalise d) = p := by
      intro d hd
      obtain ⟨op', hm, hf⟩ := last_mem (show Spec.last (Spec.deformation i) (ops ++ [op]) = some d from hd)
      rw [hn]
      apply hp
      unfold Spec.deformation at hf
      split at hf
      · split at hf
        · simp only [Option.some.injEq] at hf
          subst hf
          rename_i hji
          subst hji
          exact hm
        · simp at hf
      · simp at hf
    have hg : given lists i (ops ++ [op]) = ⟨(Spec.deformation i op).or (given lists i ops).deformation,
        (Spec.microtile i op).or (given lists i ops).microtile, (Spec.parametrization i op).or (given lists i ops).parametrization,
        ((Spec.sensitivity i op).or (Spec.last (Spec.sensitivity i) ops)).join,
        (Spec.tiling lists i op).or (given lists i ops).tiling⟩ := by simp only [given, last_append]
    have hkeep : Spec.deformation i op = none → Spec.microtile i op = none → Spec.parametrization i op = none → Spec.sensitivity i op = none →
        Spec.tiling lists i op = none → given lists i (ops ++ [op]) = given lists i ops := by
      intro h1 h2 h3 h4 h5
      rw [hg, h1, h2, h3, h4, h5]
      simp [given]
    have hstore : ∀ (j : ℕ) (o : Obj D E), (j ≠ i → given lists i (ops ++ [op]) = given lists i ops) →
        (j = i → Rel normalise lists p (given lists i (ops ++ [op])) o) →
        (storeAndCheck paraDim w j o).1.lists = lists ∧
          Rel normalise lists p (given lists i (ops ++ [op])) ((storeAndCheck paraDim w j o).1.objs i) := by
      intro j o h1 h2
      refine ⟨hl, ?_⟩
      rw [store_objs]
      by_cases hij : i = j
      · subst hij
        rw [if_pos rfl, hl]
        exact rel_sanity paraDim normalise (h2 rfl) hpg
      · rw [if_neg hij, h1 (Ne.symm hij)]
        exact hr
    cases op with
    | setDeformation j v =>
      cases v with
      | none =>
        rw [hkeep rfl rfl rfl rfl rfl]
        exact ⟨hl, hr⟩
      | some d =>
        refine hstore j _ (fun h => hkeep (by simp [Spec.deformation, h]) rfl rfl rfl rfl) (fun h => ?_)
        subst h
        rw [hg]
        refine ⟨by simp [Spec.deformation], ?_, ?_, ?_, ?_⟩
        · exact hr.microtile
        · exact hr.parametrization
        · exact hr.sensitivity
        · exact hr.tiling
    | setTiling j v =>
      cases v with
      | other =>
        rw [hkeep rfl rfl rfl rfl rfl]
        exact ⟨hl, hr⟩
      | int n =>
        refine hstore j _ (fun h => hkeep rfl rfl rfl rfl (by simp [Spec.tiling, h])) (fun h => ?_)
        subst h
        rw [hg]
        refine ⟨hr.deformation, hr.microtile, hr.parametrization, hr.sensitivity, ?_⟩
        simp [Spec.tiling, Stands]
      | list k =>
        refine hstore j _ (fun h => hkeep rfl rfl rfl rfl (by simp [Spec.tiling, h])) (fun h => ?_)
        subst h
        rw [hg]
        refine ⟨hr.deformation, hr.microtile, hr.parametrization, hr.sensitivity, ?_⟩
        simp [Spec.tiling, Stands, entries]
    | setMicrotile j v =>
      cases v with
      | splines dims =>
        simp only [step, userTile_eq]
        cases ht : Spec.tileOf (.splines dims) with
        | none =>
          simp only
          rw [hkeep rfl (by simp [Spec.microtile, ht]) rfl rfl rfl]
          exact ⟨hl, hr⟩
        | some t =>
          refine hstore j _ (fun h => hkeep rfl (by simp [Spec.microtile, h]) rfl rfl rfl) (fun h => ?_)
          subst h
          rw [hg]
          exact ⟨hr.deformation, by simp [Spec.microtile, ht], hr.parametrization, hr.sensitivity, hr.tiling⟩
      | object t =>
        refine hstore j _ (fun h => hkeep rfl (by simp [Spec.microtile, h]) rfl rfl rfl) (fun h => ?_)
        subst h
        rw [hg]
        exact ⟨hr.deformation, by simp [Spec.microtile, Spec.tileOf], hr.parametrization, hr.sensitivity, hr.tiling⟩
    | setParametrization j v =>
      cases v with
      | none =>
        rw [hkeep rfl rfl rfl rfl rfl]
        exact ⟨hl, hr⟩
      | some f =>
        refine hstore j _ (fun h => hkeep rfl rfl (by simp [Spec.parametrization, h]) rfl rfl) (fun h => ?_)
        subst h
        rw [hg]
        exact ⟨hr.deformation, hr.microtile, by simp [Spec.parametrization], hr.sensitivity, hr.tiling⟩
    | setSensitivity j v =>
      cases v with
      | other =>
        rw [hkeep rfl rfl rfl rfl rfl]
        exact ⟨hl, hr⟩
      | nothing =>
        refine hstore j _ (fun h => hkeep rfl rfl rfl (by simp [Spec.sensitivity, h]) rfl) (fun h => ?_)
        subst h
        rw [hg]
        exact ⟨hr.deformation, hr.microtile, hr.parametrization, by simp [Spec.sensitivity], hr.tiling⟩
      | function f =>
        refine hstore j _ (fun h => hkeep rfl rfl rfl (by simp [Spec.sensitivity, h]) rfl) (fun h => ?_)
        subst h
        rw [hg]
        exact ⟨hr.deformation, hr.microtile, hr.parametrization, by simp [Spec.sensitivity], hr.tiling⟩
    | create j k =>
      cases k with
      | false => exact absurd (List.mem_append_right _ (by simp)) (hc j)
      | true =>
        have h1 := create_objs paraDim spans w i j
        have e := hkeep rfl rfl rfl rfl rfl
        rw [e] at hpg ⊢
        refine ⟨h1.1.trans hl, ?_⟩
        simp only [step]
        rw [h1.2]
        by_cases hij : i = j
        · subst hij
          rw [if_pos rfl, hl]
          exact rel_sanity paraDim normalise hr hpg
        · rw [if_neg hij]
          exact hr

/-- The tiling after the check. -/
def resolve (p : ℕ) : Tiling → Tiling
  | .int n => .own (List.replicate p n)
  | t => t

theorem functionsFit_iff (o : Obj D E) (t : Tile E) : functionsFit o t = true ↔ ∀ f, o.parametrization = some f →
    ∃ e, t.points = some e ∧ f e = true ∧ ∀ g, o.sensitivity = some g → g e = true := by
  unfold functionsFit
  cases o.parametrization with
  | none => simp
  | some f =>
    cases t.points with
    | none => simp
    | some e =>
      by_cases hf : f e = true
      · cases o.sensitivity with
        | none => simp [hf]
        | some g => simp [hf]
      · simp [hf]

/-- When the check passes. -/
theorem sanity_true (lists : ℕ → List ℤ) (o o' : Obj D E) : sanityCheck paraDim lists o = (o', some true) ↔
    ∃ d t ti, o.deformation = some d ∧ o.microtile = some t ∧ o.tiling = some ti ∧ t.hasCreate = true ∧ t.dim = some (paraDim d) ∧
      (entries lists (resolve (paraDim d) ti)).length = paraDim d ∧ functionsFit o t = true ∧ o' = { o with tiling := some (resolve (paraDim d) ti) } := by
  constructor
  · intro h
    unfold sanityCheck at h
    split at h
    · rename_i d t ti hd ht hti
      split at h
      · rename_i hcreate
        split at h
        · simp at h
        · rename_i m hm
          split at h
          · rename_i hdim
            subst hdim
            refine ⟨d, t, ti, hd, ht, hti, hcreate, hm, ?_⟩
            cases ti <;> simp only at h <;> (split at h <;> [split at h; skip]) <;> simp_all [resolve]
          · simp at h
      · simp at h
    · simp at h
  · rintro ⟨d, t, ti, hd, ht, hti, hcreate, hdim, hlen, hfit, rfl⟩
    unfold sanityCheck
    rw [hd, ht, hti]
    simp only [hcreate, if_true, hdim]
    cases ti <;> simp only [resolve] at hlen ⊢ <;> simp [hlen, hfit]

/-- `create` of one object: what it works with, and when. -/
theorem create_made (w : World D E) (i : ℕ) (k : Bool) (x : Settings D E) :
    (create paraDim spans w i k).2 = .made x ↔ Spec.Fits paraDim x ∧ (w.objs i).deformation = some x.deformation ∧ (w.objs i).microtile = some x.microtile ∧
      (w.objs i).parametrization = x.parametrization ∧ (w.objs i).sensitivity = x.sensitivity ∧
      ∃ t, (w.objs i).tiling = some t ∧ x.tiling = entries w.lists (resolve (paraDim x.deformation) t) := by
  constructor
  · intro h
    unfold create at h
    rcases hs : sanityCheck paraDim w.lists (w.objs i) with ⟨o, _ | _ | _⟩ <;> rw [hs] at h
    · simp at h
    · simp at h
    · obtain ⟨d, t, ti, hd, ht, hti, hcreate, hdim, hlen, hfit, rfl⟩ := (sanity_true paraDim _ _ _).1 hs
      simp only [hd, ht] at h
      split at h
      · simp at h
      · rename_i hsens
        have hx : x = ⟨d, entries w.lists (resolve (paraDim d) ti), t, (w.objs i).parametrization, (w.objs i).sensitivity⟩ := by
          split at h
          · simpa [World.put, eq_comm] using h
          · split at h <;> simpa [World.put, eq_comm] using h
        subst hx
        refine ⟨⟨hcreate, hdim, hlen, (functionsFit_iff _ _).1 hfit, ?_⟩, hd, ht, rfl, rfl, ti, hti, rfl⟩
        intro h1 h2
        simp only at h1 h2
        apply hsens
        rw [h2]
        simpa [Option.isSome_iff_ne_none] using h1
  · rintro ⟨hfits, hd, ht, hf, hg, ti, hti, hx⟩
    obtain ⟨d, l, t, f, g⟩ := x
    simp only at hd ht hf hg hx
    have hs : sanityCheck paraDim w.lists (w.objs i) = ({ w.objs i with tiling := some (resolve (paraDim d) ti) }, some true) := by
      refine (sanity_true paraDim _ _ _).2 ⟨d, t, ti, hd, ht, hti, hfits.canCreate, hfits.dim, ?_, ?_, rfl⟩
      · rw [← hx]; exact hfits.tiling
      · rw [functionsFit_iff, hf, hg]; exact hfits.functions
    have hsens : ¬ ((w.objs i).sensitivity.isSome && (w.objs i).parametrization.isNone) = true := by
      rw [hf, hg]
      intro h
      rw [Bool.and_eq_true, Option.isSome_iff_ne_none, Option.isNone_iff_eq_none] at h
      exact hfits.sensitivity h.1 h.2
    unfold create
    rw [hs]
    simp only [hd, ht]
    rw [if_neg hsens]
    split
    · simp [World.put, hf, hg, hx]
    · split <;> simp [World.put, hf, hg, hx, *]

/-- C127, partial: in every history of assignments to any number of microstructures and of `create` with tiles per knot span, `create` of microstructure `i`
works exactly with the values assigned last, and it works whenever they are complete and fit together, whatever was refused or tried before. Missing: deformation functions of
different parametric dimensions after an integer tiling (`integer_tiling_violates`), and `create` with total numbers of tiles (`total_changes_tiling_violates`). -/
theorem create_uses_latest_partial (lists : ℕ → List ℤ) (i p : ℕ) (hn : ∀ d, paraDim (normalise d) = paraDim d) (ops : List (Op D E))
    (hc : ∀ j, Op.create j false ∉ ops) (hp : ∀ d, Op.setDeformation i (some d) ∈ ops → paraDim d = p) (x : Settings D E) :
    (step paraDim spans normalise (run paraDim spans normalise (start lists) ops) (.create i true)).2 = .made x ↔
      Spec.Latest normalise lists ops i p x ∧ Spec.Fits paraDim x := by
  obtain ⟨hl, hr⟩ := run_rel paraDim spans normalise lists i p hn ops hc hp
  simp only [step]
  rw [create_made, hr.deformation, hr.microtile, hr.parametrization, hr.sensitivity, hl]
  have hdim : ∀ d, Spec.last (Spec.deformation i) ops = some d → paraDim (normalise d) = p := by
    intro d hd
    obtain ⟨op', hm, hf⟩ := last_mem hd
    rw [hn]
    apply hp
    unfold Spec.deformation at hf
    split at hf
    · split at hf
      · simp only [Option.some.injEq] at hf
        subst hf
        rename_i hji
        subst hji
        exact hm
      · simp at hf
    · simp at hf
  have ht := hr.tiling
  constructor
  · rintro ⟨hfits, hd, hm, hf, hg, t, hti, hx⟩
    obtain ⟨d, hd1, hd2⟩ := Option.map_eq_some_iff.1 hd
    refine ⟨⟨⟨d, hd1, hd2.symm⟩, ?_, hm, hf.symm, hg.symm⟩, hfits⟩
    rw [hti] at ht
    cases hgt : (given lists i ops).tiling with
    | none => rw [hgt] at ht; exact ht.elim
    | some f =>
      refine ⟨f, hgt, ?_⟩
      rw [hgt] at ht
      rw [hx, ← hd2, hdim d hd1]
      cases t with
      | int n => simp only [Stands] at ht; simp [resolve, entries, ht]
      | shared k => simpa [resolve] using ht.symm
      | own l => simpa [resolve] using ht.symm
  · rintro ⟨⟨⟨d, hd1, hd2⟩, ⟨f, hf1, hf2⟩, hm, hf, hg⟩, hfits⟩
    refine ⟨hfits, Option.map_eq_some_iff.2 ⟨d, hd1, hd2.symm⟩, hm, hf.symm, hg.symm, ?_⟩
    have hgt : (given lists i ops).tiling = some f := hf1
    rw [hgt] at ht
    cases ho : ((run paraDim spans normalise (start lists) ops).objs i).tiling with
    | none => rw [ho] at ht; exact ht.elim
    | some t =>
      rw [ho] at ht
      refine ⟨t, rfl, ?_⟩
      rw [hf2, hd2, hdim d hd1]
      cases t with
      | int n => simp only [Stands] at ht; simp [resolve, entries, ht]
      | shared k => exact ht
      | own l => exact ht

theorem perm_last {α : Type} (f : Op D E → Option α) {ops ops' : List (Op D E)} (h : ops.Perm ops') (h1 : (ops.filterMap f).length ≤ 1) :
    Spec.last f ops = Spec.last f ops' := by
  unfold Spec.last
  have hp := h.filterMap f
  match hl : ops.filterMap f, h1 with
  | [], _ => rw [hl] at hp; rw [List.nil_perm.1 hp]
  | [a], _ => rw [hl] at hp; rw [List.singleton_perm.1 hp]

/-- C127: if every setting of a microstructure is assigned at most once, the order of the assignments (also to other microstructures, and of calls of `create` in between)
does not matter for what `create` makes. -/
theorem order_irrelevant (lists : ℕ → List ℤ) (i : ℕ) (hn : ∀ d, paraDim (normalise d) = paraDim d) (ops ops' : List (Op D E)) (hperm : ops.Perm ops')
    (hc : ∀ j, Op.create j false ∉ ops) (h1 : (ops.filterMap (Spec.deformation i)).length ≤ 1) (h2 : (ops.filterMap (Spec.tiling lists i)).length ≤ 1)
    (h3 : (ops.filterMap (Spec.microtile i)).length ≤ 1) (h4 : (ops.filterMap (Spec.parametrization i)).length ≤ 1)
    (h5 : (ops.filterMap (Spec.sensitivity i)).length ≤ 1) (x : Settings D E) :
    (step paraDim spans normalise (run paraDim spans normalise (start lists) ops) (.create i true)).2 = .made x ↔
      (step paraDim spans normalise (run paraDim spans normalise (start lists) ops') (.create i true)).2 = .made x := by
  obtain ⟨p, hp⟩ : ∃ p, ∀ d, Op.setDeformation i (some d) ∈ ops → paraDim d = p := by
    have hmem : ∀ d, Op.setDeformation i (some d) ∈ ops → d ∈ ops.filterMap (Spec.deformation i) := by
      intro d hd
      exact List.mem_filterMap.2 ⟨_, hd, by simp [Spec.deformation]⟩
    match hl : ops.filterMap (Spec.deformation i), h1 with
    | [], _ => exact ⟨0, fun d hd => by have := hmem d hd; rw [hl] at this; simp at this⟩
    | [a], _ => exact ⟨paraDim a, fun d hd => by have := hmem d hd; rw [hl] at this; simp at this; rw [this]⟩
  have hp' : ∀ d, Op.setDeformation i (some d) ∈ ops' → paraDim d = p := fun d hd => hp d (hperm.mem_iff.2 hd)
  have hc' : ∀ j, Op.create j false ∉ ops' := fun j hj => hc j (hperm.mem_iff.2 hj)
  rw [create_uses_latest_partial paraDim spans normalise lists i p hn ops hc hp x, create_uses_latest_partial paraDim spans normalise lists i p hn ops' hc' hp' x]
  have e1 := perm_last _ hperm h1
  have e2 := perm_last _ hperm h2
  have e3 := perm_last _ hperm h3
  have e4 := perm_last _ hperm h4
  have e5 := perm_last _ hperm h5
  constructor
  · rintro ⟨⟨a, b, c, d, e⟩, hf⟩
    exact ⟨⟨e1 ▸ a, e2 ▸ b, e3 ▸ c, e4 ▸ d, e5 ▸ e⟩, hf⟩
  · rintro ⟨⟨a, b, c, d, e⟩, hf⟩
    exact ⟨⟨e1.symm ▸ a, e2.symm ▸ b, e3.symm ▸ c, e4.symm ▸ d, e5.symm ▸ e⟩, hf⟩

end

/-! ### Errors are reported by the assignment -/

namespace Spec
variable {D E : Type}

/-- An assignment to microstructure `i` with a value of an accepted type. -/
def Assigns (i : ℕ) : Op D E → Prop
  | .setDeformation j v => j = i ∧ v ≠ none
  | .setTiling j v => j = i ∧ v ≠ .other
  | .setMicrotile j v => j = i ∧ tileOf v ≠ none
  | .setParametrization j v => j = i ∧ v ≠ none
  | .setSensitivity j v => j = i ∧ v ≠ .other
  | .create _ _ => False

/-- Deformation function, tile and tiling are there, and a parametrization if there are sensitivities. -/
def Complete (o : Obj D E) : Prop :=
  o.deformation ≠ none ∧ o.tiling ≠ none ∧ o.microtile ≠ none ∧ (o.sensitivity ≠ none → o.parametrization ≠ none)

end Spec

section
variable {D E : Type} (paraDim : D → ℕ) (spans : D → List ℕ) (normalise : D → D)

theorem resolve_resolve (p : ℕ) (t : Tiling) : resolve p (resolve p t) = resolve p t := by cases t <;> rfl

/-- Checking again gives the same answer. -/
theorem sanity_again (lists : ℕ → List ℤ) (o : Obj D E) :
    (sanityCheck paraDim lists (sanityCheck paraDim lists o).1).2 = some true ↔ (sanityCheck paraDim lists o).2 = some true := by
  have key : ∀ o : Obj D E, (sanityCheck paraDim lists o).2 = some true ↔ ∃ o', sanityCheck paraDim lists o = (o', some true) := by
    intro o
    constructor
    · intro h; exact ⟨_, Prod.ext rfl h⟩
    · rintro ⟨o', h⟩; rw [h]
  rcases sanity_object paraDim lists o with e | ⟨d, n, hd, ht, e⟩
  · rw [e]
  · rw [e, key, key]
    simp only [sanity_true]
    constructor
    · rintro ⟨_, d', t, ti, h1, h2, h3, h4, h5, h6, h7, _⟩
      rw [hd] at h1
      cases h1
      cases h3
      exact ⟨_, d, t, .int n, hd, h2, ht, h4, h5, h6, h7, rfl⟩
    · rintro ⟨_, d', t, ti, h1, h2, h3, h4, h5, h6, h7, _⟩
      rw [hd] at h1
      cases h1
      rw [ht] at h3
      cases h3
      exact ⟨_, d, t, _, hd, h2, rfl, h4, h5, h6, h7, rfl⟩

/-- The check says "incomplete" only if something is missing. -/
theorem sanity_false (lists : ℕ → List ℤ) (o : Obj D E) (h : (sanityCheck paraDim lists o).2 = some false) :
    o.deformation = none ∨ o.tiling = none ∨ o.microtile = none := by
  unfold sanityCheck at h
  split at h
  · exfalso
    split at h
    · split at h
      · simp at h
      · split at h
        · simp only at h
          repeat' split at h
          all_goals simp at h
        · simp at h
    · simp at h
  · rename_i hx
    obtain ⟨de, ti, t, f, g⟩ := o
    cases de with
    | none => exact .inl rfl
    | some d =>
      cases ti with
      | none => exact .inr (.inl rfl)
      | some ti =>
        cases t with
        | none => exact .inr (.inr rfl)
        | some t => exact (hx d t ti rfl rfl rfl).elim

/-- An accepted assignment stores an object and checks it. -/
theorem step_assigns (w : World D E) (i : ℕ) (op : Op D E) (h : Spec.Assigns i op) :
    ∃ o, step paraDim spans normalise w op = storeAndCheck paraDim w i o := by
  cases op with
  | setDeformation j v =>
    obtain ⟨rfl, h⟩ := h
    cases v with
    | none => exact absurd rfl h
    | some d => exact ⟨_, rfl⟩
  | setTiling j v =>
    obtain ⟨rfl, h⟩ := h
    cases v with
    | other => exact absurd rfl h
    | int n => exact ⟨_, rfl⟩
    | list k => exact ⟨_, rfl⟩
  | setMicrotile j v =>
    obtain ⟨rfl, h⟩ := h
    cases v with
    | object t => exact ⟨_, rfl⟩
    | splines dims =>
      simp only [step, userTile_eq]
      cases ht : Spec.tileOf (.splines dims) with
      | none => exact absurd ht h
      | some t => exact ⟨_, rfl⟩
  | setParametrization j v =>
    obtain ⟨rfl, h⟩ := h
    cases v with
    | none => exact absurd rfl h
    | some d => exact ⟨_, rfl⟩
  | setSensitivity j v =>
    obtain ⟨rfl, h⟩ := h
    cases v with
    | other => exact absurd rfl h
    | nothing => exact ⟨_, rfl⟩
    | function k => exact ⟨_, rfl⟩
  | create j k => exact h.elim

theorem create_made_sanity (w : World D E) (i : ℕ) (k : Bool) :
    (∃ x, (create paraDim spans w i k).2 = .made x) ↔ (sanityCheck paraDim w.lists (w.objs i)).2 = some true ∧
      ((w.objs i).sensitivity ≠ none → (w.objs i).parametrization ≠ none) := by
  constructor
  · rintro ⟨x, hx⟩
    have h := (create_made paraDim spans w i k x).1 hx
    obtain ⟨hfits, hd, ht, hf, hg, ti, hti, hx'⟩ := h
    refine ⟨?_, by rw [hf, hg]; exact hfits.sensitivity⟩
    have : sanityCheck paraDim w.lists (w.objs i) = ({ w.objs i with tiling := some (resolve (paraDim x.deformation) ti) }, some true) := by
      refine (sanity_true paraDim _ _ _).2 ⟨_, _, ti, hd, ht, hti, hfits.canCreate, hfits.dim, ?_, ?_, rfl⟩
      · rw [← hx']; exact hfits.tiling
      · rw [functionsFit_iff, hf, hg]; exact hfits.functions
    rw [this]
  · rintro ⟨h, hs⟩
    obtain ⟨d, t, ti, hd, ht, hti, h1, h2, h3, h4, _⟩ := (sanity_true paraDim w.lists (w.objs i) _).1 (Prod.ext rfl h)
    refine ⟨⟨d, entries w.lists (resolve (paraDim d) ti), t, (w.objs i).parametrization, (w.objs i).sensitivity⟩, ?_⟩
    rw [create_made]
    exact ⟨⟨h1, h2, h3, (functionsFit_iff _ _).1 h4, hs⟩, hd, ht, rfl, rfl, ti, hti, rfl⟩

/-- C127: an accepted assignment raises only if `create` would raise afterwards; if it returns and the settings are complete, `create` works. So settings that do not fit are
reported by the assignment that completes them. -/
theorem assignment_reports (w : World D E) (i : ℕ) (op : Op D E) (h : Spec.Assigns i op) (k : Bool) :
    let r := step paraDim spans normalise w op
    (r.2 = .raised → ¬ ∃ x, (create paraDim spans r.1 i k).2 = .made x) ∧
      (r.2 ≠ .raised → Spec.Complete (r.1.objs i) → ∃ x, (create paraDim spans r.1 i k).2 = .made x) := by
  obtain ⟨o, ho⟩ := step_assigns paraDim spans normalise w i op h
  simp only [ho, create_made_sanity]
  have hobj : (storeAndCheck paraDim w i o).1.objs i = (sanityCheck paraDim w.lists o).1 := by rw [store_objs, if_pos rfl]
  rw [hobj, store_lists]
  rw [sanity_again]
  constructor
  · intro hr hx
    simp only [storeAndCheck] at hr
    rw [hx.1] at hr
    simp at hr
  · intro hr hcomp
    refine ⟨?_, hcomp.2.2.2⟩
    rcases hs : (sanityCheck paraDim w.lists o).2 with _ | _ | _
    · simp [storeAndCheck, hs] at hr
    · exfalso
      obtain ⟨e1, e2, e3, e4⟩ := sanity_rest paraDim w.lists o
      rcases sanity_false paraDim w.lists o hs with h1 | h1 | h1
      · exact hcomp.1 (e1.trans h1)
      · rcases sanity_object paraDim w.lists o with e | ⟨d, n, _, ht, _⟩
        · exact hcomp.2.1 (by rw [e]; exact h1)
        · rw [h1] at ht; simp at ht
      · exact hcomp.2.2.1 (e2.trans h1)
    · rfl

/-! ### Where the property fails -/

/-- C127 fails: a deformation function of another parametric dimension is refused with an exception, but it is kept: `create`, which worked before, raises from now on. -/
theorem refused_kept_violates (w : World D E) (i : ℕ) (k : Bool) (x : Settings D E) (hx : (create paraDim spans w i k).2 = .made x)
    (hn : ∀ d, paraDim (normalise d) = paraDim d) (d : D) (hd : paraDim d ≠ paraDim x.deformation) :
    let r := step paraDim spans normalise w (.setDeformation i (some d))
    r.2 = .raised ∧ (r.1.objs i).deformation = some (normalise d) ∧ ∀ k y, (create paraDim spans r.1 i k).2 ≠ .made y := by
  have h := (create_made paraDim spans w i k x).1 hx
  have hs : sanityCheck paraDim w.lists { w.objs i with deformation := some (normalise d) } =
      ({ w.objs i with deformation := some (normalise d) }, none) := by
    obtain ⟨hfits, h1, h2, h3, h4, ti, h5, h6⟩ := h
    have hne : ¬ paraDim (normalise d) = paraDim x.deformation := by rw [hn]; exact hd
    simp [sanityCheck, h2, h5, hfits.canCreate, hfits.dim, hne]
  have hr : (step paraDim spans normalise w (.setDeformation i (some d))).2 = .raised := by simp [step, storeAndCheck, hs]
  refine ⟨hr, ?_, ?_⟩
  · simp [step, storeAndCheck, hs, World.put]
  · intro k' y hy
    exact (assignment_reports paraDim spans normalise w i (.setDeformation i (some d)) ⟨rfl, by simp⟩ k').1 hr ⟨y, hy⟩

/-- C127 fails: after an integer tiling and fitting values for `p` directions, fitting values for another number of directions can not be assigned, in neither order, although
the same values work for a new microstructure. -/
theorem integer_tiling_violates (lists : ℕ → List ℤ) (n : ℤ) (d d' : D) (e e' : Option E) (hn : ∀ d, paraDim (normalise d) = paraDim d)
    (hd : paraDim d ≠ paraDim d') :
    let t : Tile E := ⟨true, some (paraDim d), e⟩
    let t' : Tile E := ⟨true, some (paraDim d'), e'⟩
    let before : List (Op D E) := [.setTiling 0 (.int n), .setDeformation 0 (some d), .setMicrotile 0 (.object t)]
    let one : List (Op D E) := [.setDeformation 0 (some d'), .setMicrotile 0 (.object t')]
    let other : List (Op D E) := [.setMicrotile 0 (.object t'), .setDeformation 0 (some d')]
    let w (ops : List (Op D E)) := run paraDim spans normalise (start lists) ops
    (∀ x, (create paraDim spans (w (before ++ one)) 0 true).2 ≠ .made x) ∧ (∀ x, (create paraDim spans (w (before ++ other)) 0 true).2 ≠ .made x) ∧
      ∃ x, (create paraDim spans (w (.setTiling 0 (.int n) :: one)) 0 true).2 = .made x := by
  intro t t' before one other w
  have hne : ¬ paraDim d' = paraDim d := fun h => hd h.symm
  have key : ∀ ops, (w ops).objs 0 = { deformation := some (normalise d'), tiling := some (.own (List.replicate (paraDim d) n)), microtile := some t' } →
      ∀ x, (create paraDim spans (w ops) 0 true).2 ≠ .made x := by
    intro ops ho x hx
    have h := (create_made paraDim spans _ 0 true x).1 hx
    rw [ho] at h
    obtain ⟨hfits, h1, h2, h3, h4, ti, h5, h6⟩ := h
    simp only [Option.some.injEq] at h1 h5
    subst h5
    have hl := hfits.tiling
    rw [h6, ← h1, hn] at hl
    simp [resolve, entries] at hl
    exact hd hl
  refine ⟨key _ ?_, key _ ?_, ?_⟩
  · simp [w, before, one, t, t', run, step, storeAndCheck, sanityCheck, start, World.put, hn, functionsFit, entries, hd, hne]
  · simp [w, before, other, t, t', run, step, storeAndCheck, sanityCheck, start, World.put, hn, functionsFit, entries, hd, hne]
  · rw [create_made_sanity]
    simp [w, one, t', run, step, storeAndCheck, sanityCheck, start, World.put, hn, functionsFit, entries]

/-- C127 fails: `create` with total numbers of tiles writes into the list of the user: another microstructure with the same list, which had been given `x.tiling`, now works with
larger numbers. -/
theorem total_changes_tiling_violates (w : World D E) (i j k : ℕ) (hij : i ≠ j) (hi : (w.objs i).tiling = some (.shared k)) (hj : (w.objs j).tiling = some (.shared k))
    (x y : Settings D E) (hx : (create paraDim spans w i false).2 = .made x) (hy : (create paraDim spans w j true).2 = .made y) :
    (create paraDim spans (create paraDim spans w i false).1 j true).2 = .made { y with tiling := enlarge (spans x.deformation) y.tiling } := by
  have h := (create_made paraDim spans w i false x).1 hx
  have h' := (create_made paraDim spans w j true y).1 hy
  have hw : (create paraDim spans w i false).1.objs j = w.objs j ∧
      (create paraDim spans w i false).1.lists k = enlarge (spans x.deformation) (w.lists k) := by
    obtain ⟨hfits, h1, h2, h3, h4, ti, h5, h6⟩ := h
    rw [hi] at h5
    cases h5
    have hs : sanityCheck paraDim w.lists (w.objs i) = (w.objs i, some true) := by
      refine (sanity_true paraDim _ _ _).2 ⟨_, _, _, h1, h2, hi, hfits.canCreate, hfits.dim, ?_, ?_, ?_⟩
      · rw [← h6]; exact hfits.tiling
      · rw [functionsFit_iff, h3, h4]; exact hfits.functions
      · simp only [resolve, ← hi]
    have hsens : ¬ ((w.objs i).sensitivity.isSome && (w.objs i).parametrization.isNone) = true := by
      rw [h3, h4]
      intro h
      rw [Bool.and_eq_true, Option.isSome_iff_ne_none, Option.isNone_iff_eq_none] at h
      exact hfits.sensitivity h.1 h.2
    unfold create
    rw [hs]
    simp only [h1, h2, hi]
    rw [if_neg hsens]
    simp [World.put, entries, Ne.symm hij]
  obtain ⟨hfits, h1, h2, h3, h4, ti, h5, h6⟩ := h'
  rw [hj] at h5
  cases h5
  rw [create_made, hw.1]
  refine ⟨⟨hfits.canCreate, hfits.dim, ?_, hfits.functions, hfits.sensitivity⟩, h1, h2, h3, h4, _, hj, ?_⟩
  · simpa [enlarge] using hfits.tiling
  · simp only [resolve, entries] at h6 ⊢
    rw [hw.2, h6]

/-- C127: a parametrization function can not be removed (`None` is refused), so after it a tile made of splines never works, whatever else is assigned. -/
theorem parametrization_stays_violates (w : World D E) (i : ℕ) (hp : (w.objs i).parametrization ≠ none)
    (ht : ∃ t, (w.objs i).microtile = some t ∧ t.points = none) (ops : List (Op D E)) (ho : ∀ v, Op.setMicrotile i v ∉ ops) (k : Bool) (x : Settings D E) :
    (create paraDim spans (run paraDim spans normalise w ops) i k).2 ≠ .made x := by
  have key : ∀ w : World D E, (w.objs i).parametrization ≠ none → (∃ t, (w.objs i).microtile = some t ∧ t.points = none) →
      ∀ k, (sanityCheck paraDim w.lists (w.objs i)).2 ≠ some true ∧ ¬ ∃ x, (create paraDim spans w i k).2 = .made x := by
    intro w h1 ⟨t, h2, h3⟩ k
    have hs : (sanityCheck paraDim w.lists (w.objs i)).2 ≠ some true := by
      intro hs
      obtain ⟨d, t', ti, _, ht', _, _, _, _, hfit, _⟩ := (sanity_true paraDim w.lists (w.objs i) _).1 (Prod.ext rfl hs)
      rw [h2] at ht'
      cases ht'
      rw [functionsFit_iff] at hfit
      obtain ⟨f, hf⟩ := Option.ne_none_iff_exists'.1 h1
      obtain ⟨e, he, _⟩ := hfit f hf
      rw [h3] at he
      simp at he
    exact ⟨hs, fun h => hs ((create_made_sanity paraDim spans w i k).1 h).1⟩
  have inv : ∀ (w : World D E) (op : Op D E), (∀ v, op ≠ .setMicrotile i v) → (w.objs i).parametrization ≠ none →
      (∃ t, (w.objs i).microtile = some t ∧ t.points = none) →
      ((step paraDim spans normalise w op).1.objs i).parametrization ≠ none ∧
        ∃ t, ((step paraDim spans normalise w op).1.objs i).microtile = some t ∧ t.points = none := by
    intro w op hop h1 h2
    have hst : ∀ (j : ℕ) (o : Obj D E), (j = i → o.parametrization ≠ none ∧ ∃ t, o.microtile = some t ∧ t.points = none) →
        ((storeAndCheck paraDim w j o).1.objs i).parametrization ≠ none ∧
          ∃ t, ((storeAndCheck paraDim w j o).1.objs i).microtile = some t ∧ t.points = none := by
      intro j o h
      rw [store_objs]
      by_cases hij : i = j
      · rw [if_pos hij]
        obtain ⟨_, e2, e3, _⟩ := sanity_rest paraDim w.lists o
        rw [e2, e3]
        exact h hij.symm
      · rw [if_neg hij]; exact ⟨h1, h2⟩
    cases op with
    | setDeformation j v =>
      cases v with
      | none => exact ⟨h1, h2⟩
      | some d => exact hst j _ (fun h => by subst h; exact ⟨h1, h2⟩)
    | setTiling j v =>
      cases v with
      | other => exact ⟨h1, h2⟩
      | int n => exact hst j _ (fun h => by subst h; exact ⟨h1, h2⟩)
      | list n => exact hst j _ (fun h => by subst h; exact ⟨h1, h2⟩)
    | setMicrotile j v =>
      have hj : j ≠ i := fun h => hop v (by rw [h])
      cases v with
      | object t => exact hst j _ (fun h => absurd h hj)
      | splines dims =>
        simp only [step]
        cases userTile dims with
        | none => exact ⟨h1, h2⟩
        | some t => exact hst j _ (fun h => absurd h hj)
    | setParametrization j v =>
      cases v with
      | none => exact ⟨h1, h2⟩
      | some d => exact hst j _ (fun h => by subst h; exact ⟨by simp, h2⟩)
    | setSensitivity j v =>
      cases v with
      | other => exact ⟨h1, h2⟩
      | nothing => exact hst j _ (fun h => by subst h; exact ⟨h1, h2⟩)
      | function n => exact hst j _ (fun h => by subst h; exact ⟨h1, h2⟩)
    | create j k =>
      have hobj : (create paraDim spans w j k).1.objs i = w.objs i ∨
          (create paraDim spans w j k).1.objs i = (sanityCheck paraDim w.lists (w.objs i)).1 := by
        by_cases hij : i = j
        · subst hij
          right
          have hs := (key w h1 h2 k).1
          unfold create
          rcases hc : sanityCheck paraDim w.lists (w.objs i) with ⟨o, _ | _ | _⟩
          · simp [World.put]
          · simp [World.put]
          · rw [hc] at hs; exact absurd rfl hs
        · left
          unfold create
          rcases hc : sanityCheck paraDim w.lists (w.objs j) with ⟨o, _ | _ | _⟩
          · simp [World.put, hij]
          · simp [World.put, hij]
          · simp only
            split
            · split
              · simp [World.put, hij]
              · split
                · simp [World.put, hij]
                · split <;> simp [World.put, hij]
            · simp [World.put, hij]
      simp only [step]
      rcases hobj with e | e <;> rw [e]
      · exact ⟨h1, h2⟩
      · obtain ⟨_, e2, e3, _⟩ := sanity_rest paraDim w.lists (w.objs i)
        rw [e2, e3]
        exact ⟨h1, h2⟩
  have fin : ∀ (ops : List (Op D E)) (w : World D E), (∀ v, Op.setMicrotile i v ∉ ops) → (w.objs i).parametrization ≠ none →
      (∃ t, (w.objs i).microtile = some t ∧ t.points = none) → ((run paraDim spans normalise w ops).objs i).parametrization ≠ none ∧
        ∃ t, ((run paraDim spans normalise w ops).objs i).microtile = some t ∧ t.points = none := by
    intro ops
    induction ops with
    | nil => intro w _ h1 h2; exact ⟨h1, h2⟩
    | cons op ops ih =>
      intro w ho h1 h2
      have := inv w op (fun v h => ho v (by simp [h])) h1 h2
      exact ih _ (fun v h => ho v (List.mem_cons_of_mem _ h)) this.1 this.2
  have h := fin ops w ho hp ht
  exact fun hx => (key _ h.1 h.2 k).2 ⟨x, hx⟩

end

/-! ### Samples -/

/-- Deformation functions of the samples: numbers of knot spans per direction. -/
abbrev sampleDim : List ℕ → ℕ := List.length

/-- A tile of two dimensions with evaluation points. -/
def sampleTile : Tile Unit := ⟨true, some 2, some ()⟩

/-- A history that meets the hypotheses of `create_uses_latest_partial`, with refused values in between. -/
def sampleOps : List (Op (List ℕ) Unit) :=
  [.setTiling 0 (.int 3), .setMicrotile 0 (.splines [some 3, some 2]), .setMicrotile 0 (.splines [some 3]), .setDeformation 0 (some [1, 2]),
    .setParametrization 0 (some fun _ => true), .setParametrization 0 none, .create 0 true, .setMicrotile 0 (.object sampleTile), .setTiling 1 (.list 0)]

example : (∀ j, Op.create j false ∉ sampleOps) ∧ (∀ d, Op.setDeformation 0 (some d) ∈ sampleOps → sampleDim d = 2) := by
  constructor
  · intro j h; simp [sampleOps] at h
  · intro d h
    simp [sampleOps] at h
    subst h
    rfl

/-- After the history, `create` works with three tiles per direction. -/
example : ∃ f, (step sampleDim id id (run sampleDim id id (start fun _ => [1, 3]) sampleOps) (.create 0 true)).2 =
    .made ⟨[1, 2], [3, 3], sampleTile, some f, none⟩ := ⟨_, rfl⟩

/-- Two microstructures share the list `[1, 3]`; after `create` of the first one with total numbers, the list is `[2, 3]`. -/
example :
    let ops : List (Op (List ℕ) Unit) := [.setTiling 0 (.list 0), .setDeformation 0 (some [2, 1]), .setMicrotile 0 (.object sampleTile), .setTiling 1 (.list 0),
      .setDeformation 1 (some [1, 1]), .setMicrotile 1 (.object sampleTile)]
    let w := run sampleDim id id (start fun _ => [1, 3]) ops
    (create sampleDim id w 0 false).2 = .made ⟨[2, 1], [1, 3], sampleTile, none, none⟩ ∧
      (create sampleDim id w 1 true).2 = .made ⟨[1, 1], [1, 3], sampleTile, none, none⟩ ∧
      (create sampleDim id (create sampleDim id w 0 false).1 1 true).2 = .made ⟨[1, 1], [2, 3], sampleTile, none, none⟩ := ⟨rfl, rfl, rfl⟩

/-- A parametrization function and a tile of splines. -/
example :
    let w := run sampleDim id id (start fun _ => [1, 3]) ([.setParametrization 0 (some fun _ => true), .setMicrotile 0 (.splines [some 2])] : List (Op (List ℕ) Unit))
    (w.objs 0).parametrization ≠ none ∧ ∃ t, (w.objs 0).microtile = some t ∧ t.points = none := ⟨by simp [run, step, storeAndCheck, sanityCheck, start, World.put, userTile], _, rfl, rfl⟩

end Splinepy.MicroSettings
