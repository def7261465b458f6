import Verif.Model.MultipatchData
import Verif.Props.FieldData

/-!
C119: data of a multipatch are what was stored under their key. C103 for multipatches: data are shown where they belong.
-/
namespace Splinepy.MultipatchData

variable {P A : Type}

/-! ### Specification -/

/-- The call assigns to the key of the multipatch, or gives it new patches. -/
def Spec.Touches (i : ℕ) (key : String) : Op P A → Prop
  | .setItem j k _ => j = i ∧ k = key
  | .setPatches j _ => j = i
  | _ => False

/-- What is stored under a key in the world `w`: the multipatch itself, the adaptor itself, or the field with the number. -/
def Spec.Stored (w : World P A) (i : ℕ) : Value P A → Option (Result P A)
  | .multipatch f => some (.field f)
  | .adaptor a => some (.adaptor a)
  | .number n => (fieldAt w i n).map .field

/-! ### Proof -/

/-- every multipatch has a list of fields -/
def Valid (w : World P A) : Prop := ∀ (i : ℕ) (o : Obj P A), w.objs[i]? = some o → o.list < w.lists.length

/-- the multipatch has this entry and these fields (and maybe more) -/
def At (w : World P A) (i : ℕ) (key : String) (s : Saved A) (a : ℕ) (l : List (List P)) : Prop :=
  ∃ (o : Obj P A) (l' : List (List P)), w.objs[i]? = some o ∧ o.saved key = some s ∧ o.list = a ∧ w.lists[a]? = some (l ++ l')

variable {accepts : List P → List P → Bool}

theorem lt_of_get {α : Type} {l : List α} {i : ℕ} {a : α} (h : l[i]? = some a) : i < l.length := by
  rcases List.getElem?_eq_some_iff.1 h with ⟨h, _⟩
  exact h

theorem set_self {α : Type} {l : List α} {i : ℕ} {a : α} (h : i < l.length) : (l.set i a)[i]? = some a := by
  rw [List.getElem?_set]; simp [h]

theorem set_other {α : Type} {l : List α} {i j : ℕ} {a : α} (h : j ≠ i) : (l.set j a)[i]? = l[i]? := by
  rw [List.getElem?_set]; simp [h]

theorem append_old {α : Type} {l : List α} {i : ℕ} {a b : α} (h : l[i]? = some b) : (l ++ [a])[i]? = some b := by
  rw [List.getElem?_append_left (lt_of_get h)]; exact h

theorem save_valid {w : World P A} (hw : Valid w) (i : ℕ) (key : String) (s : Saved A) : Valid (save w i key s) := by
  unfold save
  cases ho : w.objs[i]? with
  | none => exact hw
  | some o =>
    intro j o' hj
    simp only [List.getElem?_set] at hj
    split at hj
    · split at hj
      · cases hj; exact hw i o ho
      · exact absurd hj (by simp)
    · exact hw j o' hj

theorem addFields_valid {w : World P A} (hw : Valid w) (i : ℕ) (fs : List (List P)) : Valid (addFields accepts w i fs).1 := by
  unfold addFields
  split
  · split
    · split
      · intro j o' hj
        simp only [List.length_set]
        exact hw j o' hj
      · exact hw
    · exact hw
  · exact hw

theorem step_valid {w : World P A} (hw : Valid w) (op : Op P A) : Valid (step accepts w op) := by
  cases op with
  | create ps =>
    intro j o hj
    simp only [step, create, List.length_append, List.length_singleton] at hj ⊢
    rw [List.getElem?_append] at hj
    split at hj
    · have := hw j o hj; omega
    · rw [List.getElem?_singleton] at hj
      split at hj
      · cases hj; simp
      · exact absurd hj (by simp)
  | derive i =>
    simp only [step, derive]
    cases ho : w.objs[i]? with
    | none => exact hw
    | some o =>
      intro j o' hj
      rw [List.getElem?_append] at hj
      split at hj
      · exact hw j o' hj
      · rw [List.getElem?_singleton] at hj
        split at hj
        · cases hj; exact hw i o ho
        · exact absurd hj (by simp)
  | setPatches i ps =>
    simp only [step, setPatches]
    cases ho : w.objs[i]? with
    | none => exact hw
    | some o =>
      intro j o' hj
      simp only [List.length_append, List.length_singleton]
      simp only [List.getElem?_set] at hj
      split at hj
      · split at hj
        · cases hj; simp
        · exact absurd hj (by simp)
      · have := hw j o' hj; omega
  | addFields i fs => exact addFields_valid hw i fs
  | setItem i key v =>
    cases v with
    | adaptor a =>
      simp only [step, setItem]
      split
      · exact save_valid hw i key _
      · exact hw
    | number n =>
      simp only [step, setItem]
      split
      · exact save_valid hw i key _
      · exact hw
    | multipatch f =>
      simp only [step, setItem]
      split
      · split
        · exact addFields_valid (save_valid hw i key _) i _
        · exact hw
      · exact hw

theorem run_valid {w : World P A} (hw : Valid w) (ops : List (Op P A)) : Valid (run accepts w ops) := by
  induction ops generalizing w with
  | nil => exact hw
  | cons op ops ih => exact ih (step_valid hw op)

theorem empty_valid : Valid ({} : World P A) := by
  intro i o h; simp at h

theorem addFields_at {w : World P A} {i : ℕ} {key : String} {s : Saved A} {a : ℕ} {l : List (List P)} (h : At w i key s a l) (j : ℕ) (fs : List (List P)) :
    At (addFields accepts w j fs).1 i key s a l := by
  obtain ⟨o, l', h1, h2, h3, h4⟩ := h
  unfold addFields
  split
  · rename_i o2 ho2
    split
    · rename_i l2 hl2
      split
      · by_cases hl : o2.list = a
        · rw [hl] at hl2 ⊢
          rw [h4, Option.some_inj] at hl2
          subst hl2
          exact ⟨o, l' ++ fs, h1, h2, h3, by rw [set_self (lt_of_get h4), List.append_assoc]⟩
        · exact ⟨o, l', h1, h2, h3, by rw [set_other hl]; exact h4⟩
      · exact ⟨o, l', h1, h2, h3, h4⟩
    · exact ⟨o, l', h1, h2, h3, h4⟩
  · exact ⟨o, l', h1, h2, h3, h4⟩

theorem save_at {w : World P A} {i : ℕ} {key : String} {s : Saved A} {a : ℕ} {l : List (List P)} (h : At w i key s a l) {j : ℕ} {k : String} (hk : ¬ (j = i ∧ k = key)) (t : Saved A) :
    At (save w j k t) i key s a l := by
  obtain ⟨o, l', h1, h2, h3, h4⟩ := h
  unfold save
  split
  · rename_i o2 ho2
    by_cases hj : j = i
    · subst hj
      rw [h1, Option.some_inj] at ho2
      subst ho2
      refine ⟨_, l', set_self (lt_of_get h1), ?_, h3, h4⟩
      have : key ≠ k := fun e => hk ⟨rfl, e.symm⟩
      simp only [this, if_false]
      exact h2
    · exact ⟨o, l', by rw [set_other hj]; exact h1, h2, h3, h4⟩
  · exact ⟨o, l', h1, h2, h3, h4⟩

theorem step_at {w : World P A} {i : ℕ} {key : String} {s : Saved A} {a : ℕ} {l : List (List P)} (h : At w i key s a l) {op : Op P A} (ht : ¬ Spec.Touches i key op) :
    At (step accepts w op) i key s a l := by
  cases op with
  | create ps =>
    obtain ⟨o, l', h1, h2, h3, h4⟩ := h
    exact ⟨o, l', append_old h1, h2, h3, append_old h4⟩
  | derive j =>
    obtain ⟨o, l', h1, h2, h3, h4⟩ := h
    simp only [step, derive]
    split
    · exact ⟨o, l', append_old h1, h2, h3, h4⟩
    · exact ⟨o, l', h1, h2, h3, h4⟩
  | setPatches j ps =>
    obtain ⟨o, l', h1, h2, h3, h4⟩ := h
    simp only [step, setPatches]
    split
    · exact ⟨o, l', by rw [set_other ht]; exact h1, h2, h3, append_old h4⟩
    · exact ⟨o, l', h1, h2, h3, h4⟩
  | addFields j fs => exact addFields_at h j fs
  | setItem j k v =>
    cases v with
    | adaptor a =>
      simp only [step, setItem]
      split
      · exact save_at h ht _
      · exact h
    | number n =>
      simp only [step, setItem]
      split
      · exact save_at h ht _
      · exact h
    | multipatch f =>
      simp only [step, setItem]
      split
      · split
        · exact addFields_at (save_at h ht _) j _
        · exact h
      · exact h

theorem run_at {w : World P A} {i : ℕ} {key : String} {s : Saved A} {a : ℕ} {l : List (List P)} (h : At w i key s a l) {ops : List (Op P A)} (ht : ∀ op ∈ ops, ¬ Spec.Touches i key op) :
    At (run accepts w ops) i key s a l := by
  induction ops generalizing w with
  | nil => exact h
  | cons op ops ih => exact ih (step_at h (ht op (.head _))) fun o ho => ht o (.tail _ ho)

theorem pyIndex_nat {α : Type} (l : List α) (n : ℕ) : pyIndex l n = l[n]? := by
  unfold pyIndex; simp

theorem save_get {w : World P A} {i : ℕ} {o : Obj P A} (h : w.objs[i]? = some o) (key : String) (s : Saved A) :
    (save w i key s).objs[i]? = some { o with saved := fun k => if k = key then some s else o.saved k } := by
  unfold save; rw [h]; exact set_self (lt_of_get h)

theorem save_lists (w : World P A) (i : ℕ) (key : String) (s : Saved A) : (save w i key s).lists = w.lists := by
  unfold save; split <;> rfl

/-- an accepted multipatch is the last of the fields -/
theorem setItem_multipatch {w : World P A} {i : ℕ} {key : String} {f : List P} (h : (setItem accepts w i key (.multipatch f)).2 = true) :
    ∃ a l, At (setItem accepts w i key (.multipatch f)).1 i key (.id (l.length : ℕ)) a (l ++ [f]) := by
  unfold setItem at h ⊢
  cases ho : w.objs[i]? with
  | none => rw [ho] at h; simp at h
  | some o =>
    rw [ho] at h
    simp only at h ⊢
    cases hl : w.lists[o.list]? with
    | none => rw [hl] at h; simp at h
    | some l =>
      rw [hl] at h
      simp only at h ⊢
      refine ⟨o.list, l, ?_⟩
      unfold addFields at h ⊢
      rw [save_get ho, save_lists] at h ⊢
      simp only [hl] at h ⊢
      split at h
      · rename_i hc
        rw [if_pos hc]
        exact ⟨_, [], save_get ho _ _, by simp, rfl, by simp only [List.append_nil]; exact set_self (lt_of_get hl)⟩
      · simp at h

theorem getItem_at {w : World P A} {i : ℕ} {key : String} {n : ℕ} {a : ℕ} {l : List (List P)} (h : At w i key (.id n) a l) (hn : n < l.length) :
    getItem w i key = l[n]?.map .field := by
  obtain ⟨o, l', h1, h2, h3, h4⟩ := h
  unfold getItem
  rw [h1]
  simp only [Option.bind_some, h2, h3, h4, pyIndex_nat]
  rw [List.getElem?_append_left hn]

/-- C119: after every history, if an assignment to a key returns, then reading the key gives what was assigned (for a number the field that has the number), whatever else is done to this and to other
multipatches: fields and other data are added, multipatches are derived that share the list of fields, other assignments are rejected. Missing: the patches of the multipatch are set again after
the assignment, and rejected assignments to the key itself, for which it is false. -/
theorem read_stored_partial (ops ops' : List (Op P A)) (i : ℕ) (key : String) (v : Value P A) (hv : (setItem accepts (run accepts {} ops) i key v).2 = true)
    (ht : ∀ op ∈ ops', ¬ Spec.Touches i key op) :
    getItem (run accepts (setItem accepts (run accepts {} ops) i key v).1 ops') i key = Spec.Stored (run accepts (setItem accepts (run accepts {} ops) i key v).1 ops') i v := by
  have hw : Valid (run accepts ({} : World P A) ops) := run_valid empty_valid ops
  generalize run accepts ({} : World P A) ops = w at hw hv ⊢
  cases v with
  | multipatch f =>
    obtain ⟨a, l, h⟩ := setItem_multipatch hv
    rw [getItem_at (run_at h ht) (by simp)]
    simp [Spec.Stored]
  | adaptor a =>
    unfold setItem at hv ⊢
    cases ho : w.objs[i]? with
    | none => rw [ho] at hv; simp at hv
    | some o =>
      simp only
      have h : At (save w i key (.adaptor a)) i key (.adaptor a) o.list [] :=
        ⟨_, w.lists[o.list]'(hw i o ho), save_get ho _ _, by simp, rfl, by rw [save_lists, List.nil_append]; exact List.getElem?_eq_getElem _⟩
      obtain ⟨o', l', h1, h2, h3, h4⟩ := run_at (accepts := accepts) h ht
      unfold getItem
      rw [h1]
      simp [h2, Spec.Stored]
  | number n =>
    unfold setItem at hv ⊢
    cases ho : w.objs[i]? with
    | none => rw [ho] at hv; simp at hv
    | some o =>
      simp only
      have h : At (save w i key (.id n)) i key (.id n) o.list [] :=
        ⟨_, w.lists[o.list]'(hw i o ho), save_get ho _ _, by simp, rfl, by rw [save_lists, List.nil_append]; exact List.getElem?_eq_getElem _⟩
      obtain ⟨o', l', h1, h2, h3, h4⟩ := run_at (accepts := accepts) h ht
      unfold getItem
      rw [h1]
      simp [h2, Spec.Stored, fieldAt, h1]

/-- The call gives new patches to the multipatch. -/
def Spec.NewPatches (i : ℕ) : Op P A → Prop
  | .setPatches j _ => j = i
  | _ => False

/-- C119: numbers of fields are stable: as long as the multipatch is not given new patches, `m.fields[n]` stays the same field. -/
theorem field_numbers_stable (ops ops' : List (Op P A)) (i n : ℕ) (f : List P) (hf : fieldAt (run accepts {} ops) i n = some f) (ht : ∀ op ∈ ops', ¬ Spec.NewPatches i op) :
    fieldAt (run accepts (run accepts {} ops) ops') i n = some f := by
  have hw : Valid (run accepts ({} : World P A) ops) := run_valid empty_valid ops
  generalize run accepts ({} : World P A) ops = w at hw hf ⊢
  unfold fieldAt at hf
  cases ho : w.objs[i]? with
  | none => rw [ho] at hf; simp at hf
  | some o =>
    rw [ho] at hf
    simp only [Option.bind_some, pyIndex_nat] at hf
    cases hl : w.lists[o.list]? with
    | none => rw [hl] at hf; simp at hf
    | some l =>
      rw [hl] at hf
      simp only [Option.bind_some] at hf
      -- a key that no call of the history assigns to; here the entry does not matter
      have key : ∀ (ops' : List (Op P A)) (w : World P A), (∀ op ∈ ops', ¬ Spec.NewPatches i op) →
          (∃ (o : Obj P A) (l l' : List (List P)), w.objs[i]? = some o ∧ w.lists[o.list]? = some (l ++ l') ∧ l[n]? = some f) → fieldAt (run accepts w ops') i n = some f := by
        intro ops'
        induction ops' with
        | nil =>
          rintro w _ ⟨o, l, l', h1, h2, h3⟩
          unfold run fieldAt
          simp only [List.foldl_nil, h1, h2, Option.bind_some, pyIndex_nat]
          rw [List.getElem?_append_left (lt_of_get h3)]; exact h3
        | cons op ops' ih =>
          rintro w ht ⟨o, l, l', h1, h2, h3⟩
          refine ih (step accepts w op) (fun p hp => ht p (.tail _ hp)) ?_
          have hadd : ∀ (w : World P A) (j : ℕ) (fs : List (List P)), (∃ (o : Obj P A) (l l' : List (List P)), w.objs[i]? = some o ∧ w.lists[o.list]? = some (l ++ l') ∧ l[n]? = some f) →
              ∃ (o : Obj P A) (l l' : List (List P)), (addFields accepts w j fs).1.objs[i]? = some o ∧ (addFields accepts w j fs).1.lists[o.list]? = some (l ++ l') ∧ l[n]? = some f := by
            rintro w j fs ⟨o, l, l', h1, h2, h3⟩
            unfold addFields
            split
            · rename_i o2 ho2
              split
              · rename_i l2 hl2
                split
                · by_cases hl : o2.list = o.list
                  · rw [hl] at hl2 ⊢
                    rw [h2, Option.some_inj] at hl2
                    subst hl2
                    exact ⟨o, l, l' ++ fs, h1, by rw [set_self (lt_of_get h2), List.append_assoc], h3⟩
                  · exact ⟨o, l, l', h1, by rw [set_other hl]; exact h2, h3⟩
                · exact ⟨o, l, l', h1, h2, h3⟩
              · exact ⟨o, l, l', h1, h2, h3⟩
            · exact ⟨o, l, l', h1, h2, h3⟩
          have hsave : ∀ (j : ℕ) (k : String) (s : Saved A), ∃ (o : Obj P A) (l l' : List (List P)),
              (save w j k s).objs[i]? = some o ∧ (save w j k s).lists[o.list]? = some (l ++ l') ∧ l[n]? = some f := by
            intro j k s
            rw [save_lists]
            by_cases hj : j = i
            · subst hj
              exact ⟨_, l, l', save_get h1 k s, h2, h3⟩
            · refine ⟨o, l, l', ?_, h2, h3⟩
              unfold save
              split
              · rw [set_other hj]; exact h1
              · exact h1
          cases op with
          | create ps => exact ⟨o, l, l', append_old h1, append_old h2, h3⟩
          | derive j =>
            simp only [step, derive]
            split
            · exact ⟨o, l, l', append_old h1, h2, h3⟩
            · exact ⟨o, l, l', h1, h2, h3⟩
          | setPatches j ps =>
            have hj : j ≠ i := ht _ (.head _)
            simp only [step, setPatches]
            split
            · exact ⟨o, l, l', by rw [set_other hj]; exact h1, append_old h2, h3⟩
            · exact ⟨o, l, l', h1, h2, h3⟩
          | addFields j fs => exact hadd w j fs ⟨o, l, l', h1, h2, h3⟩
          | setItem j k v =>
            cases v with
            | adaptor a =>
              simp only [step, setItem]
              split
              · exact hsave j k _
              · exact ⟨o, l, l', h1, h2, h3⟩
            | number m =>
              simp only [step, setItem]
              split
              · exact hsave j k _
              · exact ⟨o, l, l', h1, h2, h3⟩
            | multipatch g =>
              simp only [step, setItem]
              split
              · split
                · exact hadd _ j _ (hsave j k _)
                · exact ⟨o, l, l', h1, h2, h3⟩
              · exact ⟨o, l, l', h1, h2, h3⟩
      exact key ops' w ht ⟨o, l, [], ho, by simpa using hl, hf⟩

/-! ### Violations -/

/-- A multipatch made from another one (`Multipatch(spline=other)`) has the fields of the other one, but none of its data. -/
theorem derived_data (w : World P A) (i : ℕ) (o : Obj P A) (ho : w.objs[i]? = some o) :
    (∀ key, getItem (derive w i) w.objs.length key = none) ∧ (∀ n, fieldAt (derive w i) w.objs.length n = fieldAt w i n) ∧
      ∀ key, getItem (derive w i) i key = getItem w i key := by
  have h : derive w i = { w with objs := w.objs ++ [⟨o.patches, o.list, fun _ => none⟩] } := by unfold derive; rw [ho]
  rw [h]
  refine ⟨fun key => by simp [getItem], fun n => by simp [fieldAt, ho], fun key => ?_⟩
  unfold getItem
  simp only [append_old ho, ho]

/-- Negative numbers count the fields from the end; beyond the first field they raise. -/
theorem negative_field (w : World P A) (i : ℕ) (o : Obj P A) (l : List (List P)) (ho : w.objs[i]? = some o) (hl : w.lists[o.list]? = some l) (k : ℕ) :
    fieldAt w i (-(k + 1 : ℕ)) = l.reverse[k]? := by
  unfold fieldAt
  rw [ho, Option.bind_some, hl, Option.bind_some]
  unfold pyIndex
  rw [if_neg (by omega)]
  by_cases hk : k < l.length
  · rw [if_pos (by omega), List.getElem?_reverse hk]
    congr 1
    omega
  · rw [if_neg (by omega)]
    exact (List.getElem?_eq_none (by simpa using hk)).symm

/-- C119 fails for rejected multipatches: after every history, if `m.spline_data[key] = g` raises because `g` is not acceptable as a field, the key stays; and if then any other multipatch is stored under
another key, reading the first key gives that one, even if something else was stored there before. -/
theorem rejected_field_violates (ops : List (Op P A)) (i : ℕ) (o : Obj P A) (ho : (run accepts {} ops).objs[i]? = some o) (key key' : String) (hk : key ≠ key') (g f : List P)
    (hp : o.patches ≠ []) (hg : accepts o.patches g = false) (hf : accepts o.patches f = true) :
    (setItem accepts (run accepts {} ops) i key (.multipatch g)).2 = false ∧
      (setItem accepts (setItem accepts (run accepts {} ops) i key (.multipatch g)).1 i key' (.multipatch f)).2 = true ∧
      getItem (setItem accepts (setItem accepts (run accepts {} ops) i key (.multipatch g)).1 i key' (.multipatch f)).1 i key = some (.field f) := by
  have hw : Valid (run accepts ({} : World P A) ops) := run_valid empty_valid ops
  generalize run accepts ({} : World P A) ops = w at hw ho ⊢
  have hl := List.getElem?_eq_getElem (hw i o ho)
  generalize w.lists[o.list]'(hw i o ho) = l at hl
  have h1 : setItem accepts w i key (.multipatch g) = (save w i key (.id l.length), false) := by
    simp only [setItem, ho, hl, addFields, save_get ho, save_lists]
    simp [hg]
  rw [h1]
  simp only [true_and]
  have ho' := save_get ho key (.id (l.length : ℕ))
  have hl' : (save w i key (.id (l.length : ℕ))).lists[o.list]? = some l := by rw [save_lists]; exact hl
  generalize save w i key (.id (l.length : ℕ)) = w' at ho' hl' ⊢
  have h2 : setItem accepts w' i key' (.multipatch f) =
      ({ (save w' i key' (.id l.length)) with lists := w'.lists.set o.list (l ++ [f]) }, true) := by
    simp only [setItem, ho', hl', addFields, save_get ho', save_lists]
    simp [hf, hp]
  rw [h2]
  refine ⟨rfl, ?_⟩
  unfold getItem
  simp only [save_get ho', Option.bind_some, set_self (lt_of_get hl'), hk, if_false, if_true, pyIndex_nat]
  simp

/-- C119 fails if the multipatch is given new patches: the data keep their keys, but the fields are gone; the next field that is added is read under the old key. `f` is stored under `key` as the first
field of the multipatch. -/
theorem new_patches_violates (w : World P A) (i : ℕ) (o : Obj P A) (ho : w.objs[i]? = some o) (hl : w.lists[o.list]? = some []) (key : String) (f : List P) (hp : o.patches ≠ [])
    (hf : accepts o.patches f = true) (patches : List P) (hp' : patches ≠ []) (g : List P) (hg : accepts patches g = true) :
    let w1 := (setItem accepts w i key (.multipatch f)).1
    let w2 := setPatches w1 i patches
    getItem w1 i key = some (.field f) ∧ getItem w2 i key = none ∧ (w2.objs[i]?.bind fun o => o.saved key).isSome = true ∧
      getItem (addFields accepts w2 i [g]).1 i key = some (.field g) := by
  have h1 : setItem accepts w i key (.multipatch f) =
      ({ (save w i key (.id 0)) with lists := w.lists.set o.list [f] }, true) := by
    simp only [setItem, ho, hl, addFields, save_get ho, save_lists]
    simp [hf, hp]
  have h2 : setPatches (setItem accepts w i key (.multipatch f)).1 i patches =
      { lists := w.lists.set o.list [f] ++ [[]],
        objs := w.objs.set i { patches := patches, list := w.lists.length, saved := fun k => if k = key then some (.id 0) else o.saved k } } := by
    rw [h1]
    simp only [setPatches, save_get ho]
    simp only [save, ho, List.set_set, List.length_set]
  have hi := lt_of_get ho
  have hlen : (w.lists.set o.list [f] ++ [[]])[w.lists.length]? = some [] := by
    rw [List.getElem?_append_right (by simp)]; simp
  refine ⟨?_, ?_, ?_, ?_⟩
  · rw [h1]
    unfold getItem
    simp only [save_get ho, Option.bind_some, if_true, set_self (lt_of_get hl)]
    rfl
  · rw [h2]
    unfold getItem
    simp only [set_self hi, Option.bind_some, if_true, hlen]
    rfl
  · rw [h2]
    simp [hi]
  · rw [h2]
    simp only [addFields, set_self hi, hlen, List.nil_append]
    rw [if_pos ⟨hp', by simpa using hg⟩]
    unfold getItem
    simp only [set_self hi, Option.bind_some, if_true]
    rw [set_self (lt_of_get hlen)]
    rfl

/-- C119 fails for adaptors: on a multipatch without patches the assignment raises (there is no first patch with bounds), but the adaptor is stored. -/
theorem rejected_adaptor_violates (w : World P A) (i : ℕ) (o : Obj P A) (ho : w.objs[i]? = some o) (hp : o.patches = []) (key : String) (a : A) :
    (setItem accepts w i key (.adaptor a)).2 = false ∧ getItem (setItem accepts w i key (.adaptor a)).1 i key = some (.adaptor a) := by
  constructor
  · simp [setItem, ho, hp]
  · simp only [setItem, ho]
    unfold getItem
    simp only [save_get ho, Option.bind_some, if_true]

/-! ### Concrete cases -/

/-- fields have as many patches as the multipatch -/
def sameNumber (ps f : List ℕ) : Bool := decide (ps.length = f.length)

/-- two multipatches; a field is added to one, data are stored; a multipatch is derived -/
def history : List (Op ℕ String) :=
  [.create [10, 11], .create [12], .addFields 0 [[20, 21]], .setItem 1 "u" (.multipatch [30]), .derive 0]

-- the hypotheses of `read_stored_partial`: a second field of the first multipatch, then many other calls, among them a rejected one and one that adds to the shared list of fields
example : getItem (run sameNumber (setItem sameNumber (run sameNumber {} history) 0 "t" (.multipatch [22, 23])).1
      [.addFields 2 [[24, 25], [26, 27]], .setItem 0 "p" (.multipatch [1]), .setPatches 1 [40], .setItem 1 "t" (.multipatch [7]), .setItem 2 "t" (.number (-1))]) 0 "t" =
    some (.field [22, 23]) := by
  have := read_stored_partial (accepts := sameNumber) history
    [.addFields 2 [[24, 25], [26, 27]], .setItem 0 "p" (.multipatch [1]), .setPatches 1 [40], .setItem 1 "t" (.multipatch [7]), .setItem 2 "t" (.number (-1))] 0 "t" (.multipatch [22, 23])
    (by simp [history, run, step, create, derive, setItem, addFields, save, sameNumber]) (by simp [Spec.Touches])
  simpa [Spec.Stored] using this

-- the hypotheses of `field_numbers_stable`
example : fieldAt (run sameNumber (run sameNumber {} history) [.addFields 2 [[24, 25]], .setItem 0 "t" (.multipatch [22, 23])]) 0 (0 : ℕ) = some [20, 21] :=
  field_numbers_stable (accepts := sameNumber) history _ 0 0 [20, 21] (by simp [history, run, step, create, derive, setItem, addFields, save, sameNumber, fieldAt, pyIndex]) (by simp [Spec.NewPatches])

-- the hypotheses of `rejected_field_violates`
example : getItem (setItem sameNumber (setItem sameNumber (run sameNumber {} history) 0 "t" (.multipatch [22])).1 0 "p" (.multipatch [50, 51])).1 0 "t" = some (.field [50, 51]) :=
  (rejected_field_violates (accepts := sameNumber) history 0 ⟨[10, 11], 0, fun _ => none⟩ (by simp [history, run, step, create, derive, setItem, addFields, save, sameNumber]) "t" "p"
    (by decide) [22] [50, 51] (by simp) (by simp [sameNumber]) (by simp [sameNumber])).2.2

-- the hypotheses of `new_patches_violates`
example : ∃ w : World ℕ String, getItem w 0 "t" = some (.field [2]) ∧ getItem (setPatches w 0 [3]) 0 "t" = none :=
  have h := new_patches_violates (accepts := sameNumber) (run sameNumber ({} : World ℕ String) [.create [1]]) 0 ⟨[1], 0, fun _ => none⟩ (by simp [run, step, create]) (by simp [run, step, create]) "t" [2]
    (by simp) (by simp [sameNumber]) [3] (by simp) [4] (by simp [sameNumber])
  ⟨_, h.1, h.2.1⟩

-- the hypotheses of `rejected_adaptor_violates`
example : getItem (setItem sameNumber (run sameNumber {} [.create []]) 0 "t" (.adaptor "f")).1 0 "t" = some (.adaptor "f") :=
  (rejected_adaptor_violates (accepts := sameNumber) (run sameNumber ({} : World ℕ String) [.create []]) 0 ⟨[], 0, fun _ => none⟩ (by simp [run, step, create]) rfl "t" "f").2

end Splinepy.MultipatchData

namespace Splinepy.FieldData
open Splinepy.Index (Spline)
open Splinepy.Spec Splinepy.Mesh

set_option linter.unusedSectionVars false
variable {K : Type} [Field K] [LinearOrder K] [IsStrictOrderedRing K]

/-- Vertices and values of a multipatch belong together: patch after patch. -/
def Spec.MatchPatches (dim : ℕ) : List (Spline K (List K) × Spline K (List K)) → List (List K) → List (List K) → Prop
  | [], vertices, values => vertices = [] ∧ values = []
  | (s, data) :: rest, vertices, values => ∃ v1 v2 w1 w2, vertices = v1 ++ v2 ∧ values = w1 ++ w2 ∧ Spec.Match s dim (Spec.evaluate dim data) v1 w1 ∧ Spec.MatchPatches dim rest v2 w2

theorem sample_match {s data : Spline K (List K)} (hs : ValidSpline s) (hb : Spec.SameBounds s data) (dim : ℕ) {res : List ℕ} (hr : res.length = (directions s).length) :
    Spec.Match s dim (Spec.evaluate dim data) (sample (Spec.evaluate dim s) (directions s) res) (sample (Spec.evaluate dim data) (directions data) res) := by
  refine ⟨_, grid_in_domain hs hr, rfl, ?_⟩
  unfold sample
  rw [zipWith_bounds _ _ hb.1 hb.2]

theorem samples_match (pairs : List (Spline K (List K) × Spline K (List K))) (n : ℕ) (h : ∀ p ∈ pairs, ValidSpline p.1 ∧ (directions p.1).length = n ∧ Spec.SameBounds p.1 p.2) (dim r : ℕ) :
    Spec.MatchPatches dim pairs ((pairs.map fun p => sample (Spec.evaluate dim p.1) (directions p.1) (List.replicate n r)).flatten)
      ((pairs.map (·.2)).flatMap fun p => sample (Spec.evaluate dim p) (directions p) (List.replicate (directions p).length r)) := by
  induction pairs with
  | nil => exact ⟨rfl, rfl⟩
  | cons p pairs ih =>
    obtain ⟨h1, h2, h3⟩ := h p (.head _)
    have hlen : (directions p.2).length = n := by
      have := congrArg List.length h3.1
      simp only [List.length_map] at this
      omega
    refine ⟨_, _, _, _, by rw [List.map_cons, List.flatten_cons], by rw [List.map_cons, List.flatMap_cons], ?_, ih fun q hq => h q (.tail _ hq)⟩
    rw [hlen]
    exact sample_match h1 h3 dim (by simp [h2])

/-- C103 for multipatches of curves or surfaces with a multipatch as data, patch by patch with the same bounds: each vertex shows the value of the data of its patch at the vertex's parameter. -/
theorem multipatch_field_matches (pairs : List (Spline K (List K) × Spline K (List K))) (hne : pairs ≠ []) (n : ℕ) (hn : n = 1 ∨ n = 2)
    (h : ∀ p ∈ pairs, ValidSpline p.1 ∧ (directions p.1).length = n ∧ Spec.SameBounds p.1 p.2) (dim r : ℕ) :
    ∃ vertices, shownMultipatch (Spec.evaluate dim) r (pairs.map (·.1)) = some vertices ∧
      Spec.MatchPatches dim pairs vertices (multipatchScalar (Spec.evaluate dim) r (pairs.map (·.2))) := by
  have key := samples_match pairs n h dim r
  obtain ⟨p, rest, rfl⟩ := List.exists_cons_of_ne_nil hne
  have hp := (h p (.head _)).2.1
  rcases hn with rfl | rfl
  · refine ⟨_, ?_, key⟩
    unfold shownMultipatch
    simp only [List.map_cons, List.head?_cons, Option.map_some, hp, if_true, curveEdges, List.map_map]
    rfl
  · refine ⟨_, ?_, key⟩
    unfold shownMultipatch
    simp only [List.map_cons, List.head?_cons, Option.map_some, hp, multipatchFaces, patchCells, List.map_map]
    rfl

theorem sample_length (e : List K → List K) (ds : List (Direction K)) (r : ℕ) : (sample e ds (List.replicate ds.length r)).length = r ^ ds.length := by
  unfold sample
  rw [List.length_map, firstFastest_length]
  induction ds with
  | nil => simp
  | cons d ds ih =>
    rw [List.length_cons, List.replicate_succ, List.zipWith_cons_cons, List.map_cons, List.prod_cons, ih, pow_succ]
    simp only [linspace, List.length_map, List.length_range]
    ring

/-- C103 fails for functions on multipatches: the function is evaluated in the bounds of the first patch only, so that there are values for the vertices of one patch. -/
theorem multipatch_function_violates (s t : Spline K (List K)) (rest : List (Spline K (List K))) (n : ℕ) (hn : n = 1 ∨ n = 2) (h : ∀ p ∈ s :: t :: rest, (directions p).length = n)
    (f : List K → List K) (dim r : ℕ) (hr : 0 < r) :
    ∃ vertices values, shownMultipatch (Spec.evaluate dim) r (s :: t :: rest) = some vertices ∧ multipatchFunction (Spec.evaluate dim) (s :: t :: rest) f r = some values ∧
      vertices.length = (rest.length + 2) * r ^ n ∧ values.length = r ^ n ∧ values.length < vertices.length := by
  have hs := h s (.head _)
  have hvals : multipatchFunction (Spec.evaluate dim) (s :: t :: rest) f r =
      some ((firstFastest (List.zipWith (fun d r => linspace (Direction.lower d) (Direction.upper d) r) (directions s) (List.replicate (directions s).length r))).map f) := by
    unfold multipatchFunction
    simp only [List.head?_cons, Option.bind_some, assign]
    exact query_eq f (directions s) (by intro e; rw [e] at hs; rcases hn with rfl | rfl <;> simp at hs) (by simp) dim
  have hlen : ∀ ps : List (Spline K (List K)), (∀ p ∈ ps, (directions p).length = n) →
      ((ps.map fun p => sample (Spec.evaluate dim p) (directions p) (List.replicate n r)).flatten).length = ps.length * r ^ n := by
    intro ps hps
    induction ps with
    | nil => simp
    | cons p ps ih =>
      have := sample_length (Spec.evaluate dim p) (directions p) r
      rw [hps p (.head _)] at this
      rw [List.map_cons, List.flatten_cons, List.length_append, this, ih fun q hq => hps q (.tail _ hq), List.length_cons]
      ring
  have hv : shownMultipatch (Spec.evaluate dim) r (s :: t :: rest) =
      some (((s :: t :: rest).map fun p => sample (Spec.evaluate dim p) (directions p) (List.replicate n r)).flatten) := by
    unfold shownMultipatch
    rcases hn with rfl | rfl
    · simp only [List.head?_cons, Option.map_some, hs, if_true, curveEdges]; rfl
    · simp only [List.head?_cons, Option.map_some, hs, multipatchFaces, patchCells]; rfl
  refine ⟨_, _, hv, hvals, ?_, ?_, ?_⟩
  · rw [hlen _ h]; rfl
  · have := sample_length f (directions s) r
    rw [hs] at this ⊢
    exact this
  · have h2 := sample_length f (directions s) r
    unfold sample at h2
    rw [h2, hlen _ h, hs]
    have : 0 < r ^ n := Nat.pow_pos hr
    simp only [List.length_cons]
    nlinarith

/-- a line and a parabola, with data on each -/
def curves : List (Spline ℚ (List ℚ) × Spline ℚ (List ℚ)) :=
  [(⟨[1], none, none, [[0, 0], [1, 2]]⟩, ⟨[2], none, none, [[1], [3], [2]]⟩), (⟨[2], none, none, [[1, 2], [3, 2], [4, 0]]⟩, ⟨[1], none, none, [[2], [5]]⟩)]

-- the hypotheses of `multipatch_field_matches`
example : ∃ vertices, shownMultipatch (Spec.evaluate 2) 10 (curves.map (·.1)) = some vertices ∧ Spec.MatchPatches 2 curves vertices (multipatchScalar (Spec.evaluate 2) 10 (curves.map (·.2))) := by
  refine multipatch_field_matches curves (by simp [curves]) 1 (.inl rfl) ?_ 2 10
  intro p hp
  simp only [curves, List.mem_cons, List.not_mem_nil, or_false] at hp
  rcases hp with rfl | rfl
  · refine ⟨⟨fun kvs h => (by cases h), fun d hd => ?_, by decide, fun ws h => (by cases h)⟩, rfl, rfl, rfl⟩
    simp only [directions, List.map_cons, List.map_nil, List.mem_singleton] at hd
    subst hd
    intro kv h
    cases h
  · refine ⟨⟨fun kvs h => (by cases h), fun d hd => ?_, by decide, fun ws h => (by cases h)⟩, rfl, rfl, rfl⟩
    simp only [directions, List.map_cons, List.map_nil, List.mem_singleton] at hd
    subst hd
    intro kv h
    cases h

-- the hypotheses of `multipatch_function_violates`
example : ∃ vertices values, shownMultipatch (Spec.evaluate 2) 10 (curves.map (·.1)) = some vertices ∧ multipatchFunction (Spec.evaluate 2) (curves.map (·.1)) (fun u => u) 10 = some values ∧
    vertices.length = 20 ∧ values.length = 10 := by
  obtain ⟨v, w, h1, h2, h3, h4, -⟩ := multipatch_function_violates (⟨[1], none, none, [[0, 0], [1, 2]]⟩ : Spline ℚ (List ℚ)) ⟨[2], none, none, [[1, 2], [3, 2], [4, 0]]⟩ [] 1 (.inl rfl)
    (by simp [directions]) (fun u => u) 2 10 (by decide)
  exact ⟨v, w, h1, h2, h3, h4⟩

end Splinepy.FieldData
