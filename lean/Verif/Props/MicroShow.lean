import Verif.Model.MicroShow
import Mathlib.Data.List.Induction
import Mathlib.Data.Option.Basic

/-!
C153: what `Microstructure.show` shows.
-/
namespace Splinepy.MicroShow

namespace Spec
variable {S A M : Type}

/-- the settings after a history: what was assigned -/
def settings (s : S) : List (Op S A) → S
  | [] => s
  | .change f :: h => settings (f s) h
  | _ :: h => settings s h

/-- the arguments with which a call makes a new microstructure -/
def makes : Op S A → Option A
  | .create kwargs => some kwargs
  | .show_ false kwargs => some kwargs
  | _ => none

/-- `LastMade build s h s' m`: the last call of the history that made a microstructure made `m`, when the settings were `s'`. -/
inductive LastMade (build : S → A → Option M) (s : S) : List (Op S A) → S → M → Prop
  | here {h : List (Op S A)} {op : Op S A} {kwargs : A} {m : M} : makes op = some kwargs → build (settings s h) kwargs = some m → LastMade build s (h ++ [op]) (settings s h) m
  | earlier {h : List (Op S A)} {op : Op S A} {s' : S} {m : M} : LastMade build s h s' m → (∀ kwargs, makes op = some kwargs → build (settings s h) kwargs = none) → LastMade build s (h ++ [op]) s' m

end Spec

variable {S A T M : Type} (build : S → A → Option M) (tile : S → A → Option T)

theorem settings_append (s : S) (h : List (Op S A)) (op : Op S A) :
    Spec.settings s (h ++ [op]) = match op with | .change f => f (Spec.settings s h) | _ => Spec.settings s h := by
  induction h generalizing s with
  | nil => cases op <;> rfl
  | cons x h ih => cases x <;> exact ih _

theorem run_append (s : S) (h : List (Op S A)) (op : Op S A) : run build tile s (h ++ [op]) = step build tile (run build tile s h) op := by
  unfold run
  rw [List.foldl_append]
  rfl

theorem create_eq (w : World S M) (kwargs : A) {m : M} (h : build w.settings kwargs = some m) :
    create build w kwargs = some ({ w with made := w.made ++ [⟨m, none⟩], saved := some w.made.length }, w.made.length) := by
  simp [create, h]

theorem setOption_patches (w : World S M) (i : ℕ) (v : Bool) (j : ℕ) : ((setOption w i v).made[j]?).map Made.patches = (w.made[j]?).map Made.patches := by
  unfold setOption
  rw [List.getElem?_modify]
  by_cases h : i = j <;> cases w.made[j]? <;> simp [h]

/-- what stays the same when a microstructure is only looked at -/
def Same (w w' : World S M) : Prop := w'.settings = w.settings ∧ w'.saved = w.saved ∧ ∀ j : ℕ, (w'.made[j]?).map Made.patches = (w.made[j]?).map Made.patches

theorem showCall_saved (w : World S M) (kwargs : A) : Same w (showCall build tile w true kwargs).1 := by
  unfold showCall pick
  simp only [if_true]
  cases hs : w.saved with
  | none => exact ⟨rfl, rfl, fun _ => rfl⟩
  | some i =>
    simp only [Option.map_some]
    cases tile w.settings kwargs with
    | none => exact ⟨rfl, rfl, fun _ => rfl⟩
    | some t => exact ⟨rfl, rfl, fun j => setOption_patches w i false j⟩

theorem showCall_new (w : World S M) (kwargs : A) {m : M} (h : build w.settings kwargs = some m) :
    Same { w with made := w.made ++ [⟨m, none⟩], saved := some w.made.length } (showCall build tile w false kwargs).1 := by
  unfold showCall pick
  simp only [Bool.false_eq_true, if_false, create_eq build w kwargs h]
  cases tile w.settings kwargs with
  | none => exact ⟨rfl, rfl, fun _ => rfl⟩
  | some t => exact ⟨rfl, rfl, fun j => setOption_patches _ _ false j⟩

theorem showCall_fails (w : World S M) (kwargs : A) (h : build w.settings kwargs = none) : showCall build tile w false kwargs = (w, none) := by
  simp [showCall, pick, create, h]

/-- the saved microstructure has the patches `m` -/
def Saved (w : World S M) (m : M) : Prop := ∃ i : ℕ, w.saved = some i ∧ (w.made[i]?).map Made.patches = some m

theorem saved_same {w w' : World S M} (h : Same w w') (m : M) : Saved w' m ↔ Saved w m := by
  unfold Saved
  rw [h.2.1]
  simp only [h.2.2]

theorem saved_new (w : World S M) (m m' : M) : Saved { w with made := w.made ++ [⟨m, none⟩], saved := some w.made.length } m' ↔ m = m' := by
  simp [Saved]

/-- C153: after every history the saved microstructure is the one that the last call of `create` or `show` that made one has made. -/
theorem history_saved (s : S) (h : List (Op S A)) :
    (run build tile s h).settings = Spec.settings s h ∧ ((run build tile s h).saved.isSome → ∃ m, Saved (run build tile s h) m) ∧
      ∀ m, Saved (run build tile s h) m ↔ ∃ s', Spec.LastMade build s h s' m := by
  have lift : ∀ (h : List (Op S A)) (op : Op S A) (m : M), (∃ s', Spec.LastMade build s (h ++ [op]) s' m) ↔
      (∃ kwargs, Spec.makes op = some kwargs ∧ build (Spec.settings s h) kwargs = some m) ∨
        ((∃ s', Spec.LastMade build s h s' m) ∧ ∀ kwargs, Spec.makes op = some kwargs → build (Spec.settings s h) kwargs = none) := by
    intro h op m
    constructor
    · rintro ⟨s', hl⟩
      generalize hg : h ++ [op] = g at hl
      cases hl with
      | here h1 h2 =>
        obtain ⟨rfl, hop⟩ := List.append_inj' hg rfl
        cases hop
        exact .inl ⟨_, h1, h2⟩
      | earlier h1 h2 =>
        obtain ⟨rfl, hop⟩ := List.append_inj' hg rfl
        cases hop
        exact .inr ⟨⟨_, h1⟩, h2⟩
    · rintro (⟨kw, h1, h2⟩ | ⟨⟨s', h1⟩, h2⟩)
      · exact ⟨_, .here h1 h2⟩
      · exact ⟨_, .earlier h1 h2⟩
  induction h using List.reverseRecOn with
  | nil =>
    refine ⟨rfl, fun h => by simp [run, start] at h, fun m => ⟨?_, ?_⟩⟩
    · rintro ⟨i, hi, _⟩
      simp [run, start] at hi
    · rintro ⟨s', hl⟩
      generalize hg : ([] : List (Op S A)) = g at hl
      cases hl <;> simp at hg
  | append_singleton h op ih =>
    obtain ⟨ih1, ih2, ih3⟩ := ih
    rw [run_append, settings_append]
    simp only [lift]
    have keep : ∀ w' : World S M, Same { run build tile s h with settings := w'.settings } w' → (∀ kwargs, Spec.makes op = some kwargs → build (Spec.settings s h) kwargs = none) →
        (w'.saved.isSome → ∃ m, Saved w' m) ∧ ∀ m, Saved w' m ↔ (∃ kwargs, Spec.makes op = some kwargs ∧ build (Spec.settings s h) kwargs = some m) ∨
          ((∃ s', Spec.LastMade build s h s' m) ∧ ∀ kwargs, Spec.makes op = some kwargs → build (Spec.settings s h) kwargs = none) := by
      intro w' hw hno
      refine ⟨fun hs => ?_, fun m => ?_⟩
      · rw [hw.2.1] at hs
        obtain ⟨m, hm⟩ := ih2 hs
        exact ⟨m, (saved_same hw m).2 hm⟩
      · rw [saved_same hw]
        refine Iff.trans (ih3 m) ?_
        constructor
        · exact fun h => .inr ⟨h, hno⟩
        · rintro (⟨kw, h1, h2⟩ | h)
          · rw [hno kw h1] at h2; cases h2
          · exact h.1
    have new : ∀ (w' : World S M) (kwargs : A) (m : M), Spec.makes op = some kwargs → build (Spec.settings s h) kwargs = some m →
        Same { run build tile s h with made := (run build tile s h).made ++ [⟨m, none⟩], saved := some (run build tile s h).made.length } w' →
        (w'.saved.isSome → ∃ m, Saved w' m) ∧ ∀ m, Saved w' m ↔ (∃ kwargs, Spec.makes op = some kwargs ∧ build (Spec.settings s h) kwargs = some m) ∨
          ((∃ s', Spec.LastMade build s h s' m) ∧ ∀ kwargs, Spec.makes op = some kwargs → build (Spec.settings s h) kwargs = none) := by
      intro w' kwargs m hop hb hw
      refine ⟨fun _ => ⟨m, (saved_same hw m).2 ((saved_new _ _ _).2 rfl)⟩, fun m' => ?_⟩
      rw [saved_same hw, saved_new]
      constructor
      · rintro rfl
        exact .inl ⟨kwargs, hop, hb⟩
      · rintro (⟨kw, h1, h2⟩ | ⟨_, h2⟩)
        · rw [hop] at h1
          cases h1
          rw [hb] at h2
          exact Option.some.inj h2
        · rw [h2 kwargs hop] at hb; cases hb
    cases op with
    | change f => exact ⟨by simp [step, ih1], keep _ ⟨rfl, rfl, fun _ => rfl⟩ (by simp [Spec.makes])⟩
    | setOption i v => exact ⟨ih1, keep _ ⟨rfl, rfl, fun j => setOption_patches _ i v j⟩ (by simp [Spec.makes])⟩
    | create kwargs =>
      cases hb : build (Spec.settings s h) kwargs with
      | none =>
        have e : step build tile (run build tile s h) (.create kwargs) = run build tile s h := by simp [step, create, ih1, hb]
        rw [e]
        exact ⟨ih1, keep _ ⟨rfl, rfl, fun _ => rfl⟩ (by simp [Spec.makes, hb])⟩
      | some m =>
        have hb' := hb
        rw [← ih1] at hb'
        have e : step build tile (run build tile s h) (.create kwargs) =
            { run build tile s h with made := (run build tile s h).made ++ [⟨m, none⟩], saved := some (run build tile s h).made.length } := by
          simp [step, create_eq build _ kwargs hb']
        rw [e]
        exact ⟨ih1, new _ kwargs m rfl hb ⟨rfl, rfl, fun _ => rfl⟩⟩
    | show_ useSaved kwargs =>
      cases useSaved with
      | true =>
        have hw := showCall_saved build tile (run build tile s h) kwargs
        exact ⟨hw.1.trans ih1, keep _ ⟨rfl, hw.2⟩ (by simp [Spec.makes])⟩
      | false =>
        cases hb : build (Spec.settings s h) kwargs with
        | none =>
          have e : step build tile (run build tile s h) (.show_ false kwargs) = run build tile s h := by
            simp [step, showCall_fails build tile _ kwargs (by rw [ih1]; exact hb)]
          rw [e]
          exact ⟨ih1, keep _ ⟨rfl, rfl, fun _ => rfl⟩ (by simp [Spec.makes, hb])⟩
        | some m =>
          have hw := showCall_new build tile (run build tile s h) kwargs (by rw [ih1]; exact hb)
          exact ⟨hw.1.trans ih1, new _ kwargs m rfl hb hw⟩

/-- C153: without `use_saved`, the window shows the deformation function, the tile and the microstructure of the current settings; it raises exactly if one of them can not be made. -/
theorem show_current (s : S) (h : List (Op S A)) (kwargs : A) :
    (showCall build tile (run build tile s h) false kwargs).2 =
      (build (Spec.settings s h) kwargs).bind fun m => (tile (Spec.settings s h) kwargs).map fun t => ⟨Spec.settings s h, t, m, false⟩ := by
  have hs := (history_saved build tile s h).1
  cases hb : build (Spec.settings s h) kwargs with
  | none => rw [showCall_fails build tile _ _ (by rw [hs]; exact hb)]; rfl
  | some m =>
    unfold showCall pick
    simp only [Bool.false_eq_true, if_false, create_eq build _ kwargs (by rw [hs]; exact hb), hs, Option.bind_some]
    cases ht : tile (Spec.settings s h) kwargs with
    | none => rfl
    | some t => simp [setOption]

/-- C153: with `use_saved`, the window shows the microstructure that was made last, beside the deformation function and the tile of the current settings; it raises exactly if there is none or the
tile can not be made. -/
theorem show_saved_partial (s : S) (h : List (Op S A)) (kwargs : A) (win : Window S T M) :
    (showCall build tile (run build tile s h) true kwargs).2 = some win ↔
      ∃ s' m t, Spec.LastMade build s h s' m ∧ tile (Spec.settings s h) kwargs = some t ∧ win = ⟨Spec.settings s h, t, m, false⟩ := by
  obtain ⟨hs, h2, h3⟩ := history_saved build tile s h
  unfold showCall pick
  simp only [if_true]
  cases hsv : (run build tile s h).saved with
  | none =>
    simp only [Option.map_none, reduceCtorEq, false_iff]
    rintro ⟨s', m, t, hl, _⟩
    obtain ⟨i, hi, _⟩ := (h3 m).2 ⟨s', hl⟩
    rw [hsv] at hi
    cases hi
  | some i =>
    simp only [Option.map_some, hs]
    obtain ⟨m, hm⟩ := h2 (by simp [hsv])
    have hm' := hm
    obtain ⟨i', hi', hp⟩ := hm'
    rw [hsv] at hi'
    cases hi'
    obtain ⟨x, hx, rfl⟩ := Option.map_eq_some_iff.mp hp
    have uniq : ∀ m', Saved (run build tile s h) m' → m' = x.patches := by
      rintro m' ⟨j, hj, hp'⟩
      rw [hsv] at hj
      cases hj
      rw [hp] at hp'
      exact (Option.some.inj hp').symm
    cases ht : tile (Spec.settings s h) kwargs with
    | none => simp
    | some t =>
      have e : (setOption (run build tile s h) i false).made[i]? = some ⟨x.patches, some false⟩ := by simp [setOption, List.getElem?_modify, hx]
      simp only [e, Option.map_some, Option.some.injEq, Option.getD_some]
      have hss : (setOption (run build tile s h) i false).settings = Spec.settings s h := hs
      rw [hss]
      constructor
      · rintro rfl
        obtain ⟨s', hl⟩ := (h3 _).1 hm
        exact ⟨s', _, t, hl, rfl, rfl⟩
      · rintro ⟨s', m', t', hl, rfl, rfl⟩
        rw [uniq m' ((h3 m').2 ⟨s', hl⟩)]

/-- C153: nothing but showing changes the options of microstructures that a user holds (apart from the assignment itself), and showing changes those of at most the microstructure it shows. -/
theorem options_kept_partial (w : World S M) (op : Op S A) (j : ℕ) (x : Made M) (hx : w.made[j]? = some x) (h1 : ∀ v, op ≠ .setOption j v) (h2 : ∀ kwargs, op = .show_ true kwargs → w.saved ≠ some j) :
    (step build tile w op).made[j]? = some x := by
  have hj : j < w.made.length := by
    by_contra hc
    rw [List.getElem?_eq_none (by omega)] at hx
    cases hx
  have other : ∀ (w' : World S M) i v, i ≠ j → (setOption w' i v).made[j]? = w'.made[j]? := by
    intro w' i v hi
    simp [setOption, List.getElem?_modify, hi]
  have app : ∀ y : Made M, (w.made ++ [y])[j]? = some x := by
    intro y
    rw [List.getElem?_append_left hj, hx]
  cases op with
  | change f => exact hx
  | setOption i v =>
    have : i ≠ j := by rintro rfl; exact h1 v rfl
    exact (other w i v this).trans hx
  | create kwargs =>
    simp only [step, create]
    cases build w.settings kwargs with
    | none => exact hx
    | some m => exact app _
  | show_ useSaved kwargs =>
    simp only [step, showCall, pick]
    cases useSaved with
    | true =>
      simp only [if_true]
      cases hs : w.saved with
      | none => exact hx
      | some i =>
        have : i ≠ j := by rintro rfl; exact h2 kwargs rfl hs
        simp only [Option.map_some]
        cases tile w.settings kwargs with
        | none => exact hx
        | some t => exact (other w i false this).trans hx
    | false =>
      simp only [Bool.false_eq_true, if_false, create]
      cases build w.settings kwargs with
      | none => exact hx
      | some m =>
        simp only [Option.map_some]
        cases tile w.settings kwargs with
        | none => exact app _
        | some t => exact (other _ _ false (by omega)).trans (app _)

/-- C153 fails: showing the saved microstructure switches off the control points of the multipatch that `create` returned, for all pictures that are made of it later, whatever its options were. -/
theorem show_options_violates (w : World S M) (i : ℕ) (x : Made M) (hs : w.saved = some i) (hx : w.made[i]? = some x) (kwargs : A) (t : T) (ht : tile w.settings kwargs = some t) :
    (step build tile w (.show_ true kwargs)).made[i]? = some ⟨x.patches, some false⟩ := by
  simp [step, showCall, pick, hs, ht, setOption, List.getElem?_modify, hx]

/-- C153 fails: whenever the settings are changed after a microstructure was made, `show(use_saved=True)` shows the old microstructure beside the new deformation function and the new tile; nothing
marks it as outdated. -/
theorem show_stale_violates (s : S) (h : List (Op S A)) (kwargs kwargs' : A) (m : M) (f : S → S) (t : T) (hb : build (Spec.settings s h) kwargs = some m)
    (ht : tile (f (Spec.settings s h)) kwargs' = some t) :
    (showCall build tile (run build tile s (h ++ [.create kwargs] ++ [.change f])) true kwargs').2 = some ⟨f (Spec.settings s h), t, m, false⟩ := by
  have e1 : Spec.settings s (h ++ [.create kwargs] ++ [.change f]) = f (Spec.settings s h) := by rw [settings_append, settings_append]
  rw [show_saved_partial]
  refine ⟨Spec.settings s h, m, t, .earlier (.here rfl hb) (by simp [Spec.makes]), ?_, ?_⟩
  · rw [e1]; exact ht
  · rw [e1]

/-- a small instance: settings are numbers, structures are settings with arguments, arguments above 5 raise -/
example : (showCall (fun (s a : ℕ) => if a ≤ 5 then some (s, a) else none) (fun s _ => some s)
    (run (fun (s a : ℕ) => if a ≤ 5 then some (s, a) else none) (fun s _ => some s) 3 [.create 1, .change (· + 1), .create 9]) true 2).2 = some ⟨4, 4, (3, 1), false⟩ := by decide +kernel
example : Spec.LastMade (fun (s a : ℕ) => if a ≤ 5 then some (s, a) else none) 3 [.create 1, .change (· + 1), .create 9] 3 (3, 1) :=
  .earlier (h := [.create 1, .change (· + 1)]) (.earlier (h := [.create 1]) (.here (h := []) rfl rfl) (by simp [Spec.makes])) (by simp [Spec.makes])

end Splinepy.MicroShow
