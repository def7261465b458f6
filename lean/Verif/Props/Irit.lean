import Verif.Model.Irit
import Verif.Props.Files
import Verif.Lemma.Grid
import Mathlib.Data.List.TakeWhile

/-!
C82: splines written to an irit file and loaded again are unchanged, if their points have at most nine components and their weights are not zero.
C83: `expand_tabs` does not replace tabs.
-/
namespace Splinepy.Irit
open SplineCore Files

set_option linter.unusedSectionVars false

variable {K : Type} [Field K] [LinearOrder K] [IsStrictOrderedRing K]

/-! ### Splitting the text -/

/-- the token is not the name of a type -/
def plain (t : Tok K) : Prop := ∀ b, t ≠ .kind b

theorem splitKinds_plain (l ts : List (Tok K)) (h : ∀ t ∈ l, plain t) : splitKinds (l ++ ts) = (l ++ (splitKinds ts).1, (splitKinds ts).2) := by
  induction l with
  | nil => rfl
  | cons t l ih =>
    have ht := h t (by simp)
    rw [List.cons_append, splitKinds, ih fun t ht => h t (by simp [ht])]
    · rfl
    · intro b; exact ht b

theorem splitKinds_items {α : Type} (pre body : α → List (Tok K)) (b : α → Bool) (hpre : ∀ x, ∀ t ∈ pre x, plain t) (tail : List (Tok K)) (ht : ∀ t ∈ tail, plain t) :
    ∀ items : List α, (∀ x ∈ items, ∀ t ∈ body x, plain t) →
      List.Forall₂ (fun x p => p.1 = b x ∧ ∃ junk, p.2 = body x ++ junk) items (splitKinds (items.flatMap (fun x => pre x ++ .kind (b x) :: body x) ++ tail)).2
  | [], _ => by
    rw [List.flatMap_nil, List.nil_append, ← List.append_nil tail, splitKinds_plain _ _ ht]
    exact List.Forall₂.nil
  | x :: items, h => by
    have ih := splitKinds_items pre body b hpre tail ht items fun x hx => h x (by simp [hx])
    rw [List.flatMap_cons, List.append_assoc, List.append_assoc, splitKinds_plain _ _ (hpre x), List.cons_append, splitKinds, splitKinds_plain _ _ (h x (by simp))]
    exact List.Forall₂.cons ⟨rfl, _, rfl⟩ ih

theorem mapM_forall₂ {α β : Type} (f : β → Option α) : ∀ (l : List α) (m : List β), List.Forall₂ (fun a b => f b = some a) l m → m.mapM f = some l
  | _, _, .nil => rfl
  | _, _, .cons h t => by
    rw [List.mapM_cons, h, mapM_forall₂ f _ _ t]
    rfl

/-- no closing bracket -/
def noRb (l : List (Tok K)) : Prop := ∀ t ∈ l, t ≠ .rb

theorem beforeClose_cons (t : Tok K) (ts : List (Tok K)) (h : t ≠ .rb) : beforeClose (t :: ts) = t :: beforeClose ts := by
  rw [beforeClose]
  intro _ e
  exact absurd e h

theorem beforeClose_pre (l ts : List (Tok K)) (h : noRb l) : beforeClose (l ++ ts) = l ++ beforeClose ts := by
  induction l with
  | nil => rfl
  | cons t l ih => rw [List.cons_append, beforeClose_cons _ _ (h t (by simp)), ih fun t ht => h t (by simp [ht])]; rfl

theorem beforeClose_groups : ∀ (gs : List (List (Tok K))), (∀ g ∈ gs, noRb g) → gs ≠ [] → ∀ junk, beforeClose (gs.flatMap wrap ++ .rb :: junk) ++ [.rb] = gs.flatMap wrap
  | [], _, h, _ => absurd rfl h
  | [g], hg, _, junk => by
    rw [List.flatMap_cons, List.flatMap_nil, List.append_nil, wrap, List.append_assoc, beforeClose_pre]
    · simp [beforeClose]
    · intro t ht
      rcases List.mem_cons.1 ht with rfl | ht
      · simp
      · exact hg g (by simp) t ht
  | g :: g' :: gs, hg, _, junk => by
    have ih := beforeClose_groups (g' :: gs) (fun g hg' => hg g (by simp [hg'])) (by simp) junk
    rw [List.flatMap_cons, List.append_assoc]
    generalize he : List.flatMap wrap (g' :: gs) ++ .rb :: junk = rest at ih ⊢
    have hrest : ∃ r, rest = .lb :: r := ⟨_, by rw [← he, List.flatMap_cons, wrap]; rfl⟩
    rw [show wrap g = (.lb :: g) ++ [.rb] from rfl, List.append_assoc, beforeClose_pre]
    · obtain ⟨r, rfl⟩ := hrest
      rw [show ([.rb] ++ .lb :: r : List (Tok K)) = .rb :: .lb :: r from rfl]
      rw [show beforeClose (.rb :: .lb :: r : List (Tok K)) = .rb :: beforeClose (.lb :: r) from rfl]
      rw [List.append_assoc, List.cons_append (a := Tok.rb), ih, List.append_assoc]
      rfl
    · intro t ht
      rcases List.mem_cons.1 ht with rfl | ht
      · simp
      · exact hg g (by simp) t ht

/-- the token is not a dimension -/
def noDim (l : List (Tok K)) : Prop := ∀ t ∈ l, ∀ r n, t ≠ .dim r n

theorem splitDim_spec (l ts : List (Tok K)) (r : Bool) (n : ℕ) (h : noDim l) (h' : noDim ts) : splitDim (l ++ .dim r n :: ts) = some (l, (r, n), ts) := by
  induction l with
  | nil =>
    rw [List.nil_append, splitDim, if_neg]
    simp only [List.any_eq_true, not_exists, not_and]
    intro t ht
    have := h' t ht
    cases t <;> simp_all
  | cons t l ih =>
    rw [List.cons_append, splitDim, ih fun t ht => h t (by simp [ht])]
    · rfl
    · intro r n; exact h t (by simp) r n

theorem groups_inside (g ts acc : List (Tok K)) (h : noRb g) : groups (some acc) (g ++ .rb :: ts) = (acc ++ g) :: groups none ts := by
  induction g generalizing acc with
  | nil => simp [groups]
  | cons t g ih =>
    rw [List.cons_append, groups, ih _ fun t ht => h t (by simp [ht])]
    · simp
    · exact h t (by simp)

theorem groups_flatMap (gs : List (List (Tok K))) (h : ∀ g ∈ gs, noRb g) : groups none (gs.flatMap wrap) = gs := by
  induction gs with
  | nil => rfl
  | cons g gs ih =>
    rw [List.flatMap_cons, wrap, List.cons_append, List.cons_append, List.append_assoc, groups]
    have := groups_inside g (gs.flatMap wrap) [] (h g (by simp))
    rw [show ([.rb] ++ gs.flatMap wrap : List (Tok K)) = .rb :: gs.flatMap wrap from rfl, this, ih fun g hg => h g (by simp [hg])]
    rfl

/-! ### Reading numbers -/

theorem values_num (l : List K) : (l.map Tok.num).mapM valueOf = some l := by
  rw [List.mapM_map]
  have := Grid.mapM_eq_some_map' (fun x : K => valueOf (Tok.num x)) id l fun _ _ => rfl
  rw [List.map_id] at this
  exact this

theorem ints_int (l : List Int) : (l.map (Tok.int (K := K))).mapM intOf = some l := by
  rw [List.mapM_map]
  have := Grid.mapM_eq_some_map' (fun x : Int => intOf (Tok.int (K := K) x)) id l fun _ _ => rfl
  rw [List.map_id] at this
  exact this

theorem readDim_small {n : ℕ} (h : n ≤ 9) : readDim n = n := by
  unfold readDim
  cases n with
  | zero => rfl
  | succ n => rw [firstDigit, if_pos (by omega)]

/-- rows that are written -/
def cpRows (o : Obj K) : List (List K) :=
  match o.core.ws with
  | some ws => List.zipWith (fun w (r : List K) => w :: r.map (w * ·)) ws o.core.cps.rows
  | none => o.core.cps.rows

theorem cpGroups_eq (o : Obj K) : cpGroups o = (cpRows o).map fun r => r.map .num := by
  unfold cpGroups cpRows
  cases o.core.ws with
  | none => rfl
  | some ws =>
    simp only
    rw [List.map_zipWith]
    congr 1
    funext w r
    simp

theorem coordinates_rows (rational : Bool) (dim : ℕ) (hd : 1 ≤ dim) (rows out : List (List K)) (ws : List K) (hr : ∀ r ∈ rows, r.length = dim) (hl : rational = true → ws.length = rows.length)
    (hw : rational = true → ∀ w ∈ ws, w ≠ 0)
    (ho : out = if rational then List.zipWith (fun w (r : List K) => w :: r.map (w * ·)) ws rows else rows) :
    coordinates rational dim out.flatten = some (if rational then ws else [], rows) := by
  subst ho
  cases rational with
  | false =>
    simp only [coordinates, Bool.false_eq_true, if_false]
    rw [reshape_flatten (Nat.lt_of_lt_of_le Nat.zero_lt_one hd) rows _ hr le_rfl]
    rfl
  | true =>
    have hl := hl rfl
    have hw := hw rfl
    simp only [coordinates, if_true]
    rw [reshape_flatten (by omega) _ _ _ le_rfl]
    · simp only [Option.map_some]
      congr 1
      refine Prod.ext ?_ ?_
      · simp only
        apply List.ext_getElem
        · simp [hl]
        · intro i hi hi'
          simp
      · simp only
        apply List.ext_getElem
        · simp [hl]
        · intro i hi hi'
          simp only [List.getElem_map, List.getElem_zipWith, List.tail_cons, List.headD_cons, List.map_map]
          have hne : ws[i]'(by omega) ≠ 0 := hw _ (List.getElem_mem _)
          conv_rhs => rw [← List.map_id rows[i]]
          refine List.map_congr_left fun x _ => ?_
          simp only [Function.comp, id]
          field_simp
    · intro r h
      obtain ⟨i, hi, rfl⟩ := List.mem_iff_getElem.1 h
      simp only [List.getElem_zipWith, List.length_cons, List.length_map]
      rw [hr _ (List.getElem_mem _)]

/-! ### One spline -/

/-- ints of the header -/
def info (o : Obj K) : List Int := (if isBSpline o.cls then resolutions o.core else []) ++ o.core.degrees.map (· + 1)

/-- text of a spline behind its type -/
def body (o : Obj K) (kvg : List (List (Tok K))) : List (Tok K) :=
  (info o).map .int ++ .dim o.core.ws.isSome o.core.cps.dim :: ((kvg ++ cpGroups o).flatMap wrap ++ [.rb])

theorem exportOne_eq (o : Obj K) (kvg : List (List (Tok K))) (hk : kvGroups o = some kvg) (hc : o.cls ≠ .spline) :
    exportOne o = some ([.lb, .word (paraDimKey o.core.degrees.length)] ++ .kind (isBSpline o.cls) :: body o kvg) := by
  unfold exportOne
  rw [hk]
  simp only [Option.map_some, head, body, info]
  congr 1
  cases h : o.cls <;> simp_all [isBezier, isBSpline]

/-- the groups hold numbers, and `kv` -/
def numeric (g : List (Tok K)) : Prop := ∀ t ∈ g, t = .kv ∨ ∃ x, t = .num x

theorem cpGroups_numeric (o : Obj K) : ∀ g ∈ cpGroups o, numeric g ∧ g.any isKv = false := by
  intro g hg
  rw [cpGroups_eq] at hg
  obtain ⟨r, _, rfl⟩ := List.mem_map.1 hg
  constructor
  · intro t ht
    obtain ⟨x, _, rfl⟩ := List.mem_map.1 ht
    exact Or.inr ⟨x, rfl⟩
  · rw [List.any_eq_false]
    intro t ht
    obtain ⟨x, _, rfl⟩ := List.mem_map.1 ht
    simp [isKv]

theorem kvGroups_numeric (o : Obj K) (kvg : List (List (Tok K))) (hk : kvGroups o = some kvg) : ∀ g ∈ kvg, numeric g ∧ ∃ l : List K, g = .kv :: l.map .num := by
  intro g hg
  unfold kvGroups at hk
  split at hk
  · obtain ⟨l, hl, rfl⟩ := Option.map_eq_some_iff.1 hk
    obtain ⟨kv, _, rfl⟩ := List.mem_map.1 hg
    refine ⟨?_, kv, rfl⟩
    intro t ht
    rcases List.mem_cons.1 ht with rfl | ht
    · exact Or.inl rfl
    · obtain ⟨x, _, rfl⟩ := List.mem_map.1 ht
      exact Or.inr ⟨x, rfl⟩
  · injection hk with hk
    subst hk
    simp at hg

theorem numeric_noRb {g : List (Tok K)} (h : numeric g) : noRb g := by
  intro t ht
  rcases h t ht with rfl | ⟨x, rfl⟩ <;> simp

theorem wraps_token {gs : List (List (Tok K))} (h : ∀ g ∈ gs, numeric g) {t : Tok K} (ht : t ∈ gs.flatMap wrap) : t = .lb ∨ t = .rb ∨ t = .kv ∨ ∃ x, t = .num x := by
  obtain ⟨g, hg, ht⟩ := List.mem_flatMap.1 ht
  unfold wrap at ht
  rcases List.mem_append.1 ht with ht | ht
  · rcases List.mem_cons.1 ht with rfl | ht
    · exact Or.inl rfl
    · exact Or.inr (Or.inr (h g hg t ht))
  · exact Or.inr (Or.inl (by simpa using ht))

theorem afterKv_eq (l : List K) : afterKv (Tok.kv :: l.map Tok.num) = l.map Tok.num := by
  unfold afterKv
  rw [List.dropWhile_cons_of_neg (by simp [isKv]), List.drop_one, List.tail_cons, List.takeWhile_eq_self_iff.2]
  intro t ht
  obtain ⟨x, _, rfl⟩ := List.mem_map.1 ht
  rfl

/-- A spline for which the format works. -/
structure Spec.Writable (maxDim : ℕ) (o : Obj K) : Prop where
  constructed : Files.Spec.Constructed maxDim o
  cls : o.cls ≠ .spline
  dim : o.core.cps.dim ≤ 9
  weights : ∀ ws, o.core.ws = some ws → ∀ w ∈ ws, w ≠ 0

theorem counts (maxDim : ℕ) (o : Obj K) (h : Files.Spec.Constructed maxDim o) :
    (∀ w, o.core.ws = some w → w.length = o.core.cps.rows.length) ∧ (o.core.cps.rows.length : Int) = (resolutions o.core).prod ∧ (resolutions o.core).length = o.core.degrees.length := by
  obtain ⟨⟨ds, kvs, cps, ws, s, hg', hs, hc⟩, _⟩ := h
  have hcore := core_of_construct maxDim o.cls ds cps kvs ws hg' s hs
  rw [hc] at hcore
  have hcore := Option.some.inj hcore
  obtain ⟨⟨h1, h2, h3, h4⟩, -, -⟩ := (construction_accepts_partial maxDim o.cls ds cps kvs ws hg').1 (by rw [hs]; rfl)
  rw [hcore]
  refine ⟨h4, ?_, ?_⟩
  · cases kvs with
    | none => simpa [resolutions, meshResolutions] using h3 rfl
    | some l =>
      obtain ⟨e1, -, e3⟩ := h2 l rfl
      simp only [resolutions, meshResolutions]
      rw [e3]
      congr 1
      rw [← List.map_uncurry_zip_eq_zipWith]
      apply List.ext_getElem
      · simp [e1]
      · intro i hi hi'
        simp [Function.uncurry]
  · cases kvs with
    | none => simp [resolutions, meshResolutions]
    | some l =>
      obtain ⟨e1, -, -⟩ := h2 l rfl
      simp [resolutions, meshResolutions, e1]

theorem load_one (maxDim : ℕ) (o : Obj K) (h : Spec.Writable maxDim o) :
    ∃ kvg, kvGroups o = some kvg ∧ ∀ junk, (loadDict (isBSpline o.cls) (body o kvg ++ junk)).bind (dictToSpline maxDim) = some o := by
  obtain ⟨hcon, hcls, hdim, hweights⟩ := h
  obtain ⟨hg, hdim1, hrows, hdeg, hkl, hkind⟩ := constructed_facts maxDim o hcon
  obtain ⟨hwl, hprod, hresl⟩ := counts maxDim o hcon
  have hrect := hcon.2
  have hgs := hg
  obtain ⟨-, -, g3, g4, g5, g6⟩ := hg
  simp only at g3 g4 g5 g6
  have hb : o.core.kvs.isSome = isBSpline o.cls := by
    cases hc : o.cls <;> simp_all [Cls.requiresKvs, Cls.takesKvs, isBSpline]
  obtain ⟨kvg, hkvg⟩ : ∃ kvg, kvGroups o = some kvg := by
    unfold kvGroups
    split
    · rename_i hh
      rw [hh] at hb
      obtain ⟨l, hl⟩ := Option.isSome_iff_exists.1 hb
      rw [hl]
      exact ⟨_, rfl⟩
    · exact ⟨_, rfl⟩
  refine ⟨kvg, hkvg, fun junk => ?_⟩
  have hcp := cpGroups_numeric o
  have hkv := kvGroups_numeric o kvg hkvg
  have hnum : ∀ g ∈ kvg ++ cpGroups o, numeric g := by
    intro g hg
    rcases List.mem_append.1 hg with hg | hg
    · exact (hkv g hg).1
    · exact (hcp g hg).1
  have hcpne : cpGroups o ≠ [] := by
    rw [cpGroups_eq]
    unfold cpRows
    intro e
    cases hw : o.core.ws with
    | none =>
      rw [hw] at e
      simp only [List.map_eq_nil_iff] at e
      rw [e] at hrows
      simp at hrows
    | some w =>
      have := hwl w hw
      rw [hw] at e
      have e2 := congrArg List.length e
      simp [this] at e2
      rw [e2] at hrows
      simp at hrows
  -- the text of this spline
  have hclose : beforeClose (body o kvg ++ junk) ++ [.rb] = (info o).map .int ++ .dim o.core.ws.isSome o.core.cps.dim :: (kvg ++ cpGroups o).flatMap wrap := by
    unfold body
    rw [show (info o).map Tok.int ++ .dim o.core.ws.isSome o.core.cps.dim :: ((kvg ++ cpGroups o).flatMap wrap ++ [.rb]) ++ junk
      = ((info o).map Tok.int ++ [.dim o.core.ws.isSome o.core.cps.dim]) ++ ((kvg ++ cpGroups o).flatMap wrap ++ .rb :: junk) by simp]
    rw [beforeClose_pre, List.append_assoc, beforeClose_groups _ (fun g hg => numeric_noRb (hnum g hg)) (by simp [hcpne])]
    · simp
    · intro t ht
      rcases List.mem_append.1 ht with ht | ht
      · obtain ⟨x, _, rfl⟩ := List.mem_map.1 ht
        simp
      · rw [List.mem_singleton.1 ht]
        simp
  have hsplit : splitDim (beforeClose (body o kvg ++ junk) ++ [.rb]) = some ((info o).map .int, (o.core.ws.isSome, o.core.cps.dim), (kvg ++ cpGroups o).flatMap wrap) := by
    rw [hclose]
    apply splitDim_spec
    · intro t ht
      obtain ⟨x, _, rfl⟩ := List.mem_map.1 ht
      simp
    · intro t ht
      rcases wraps_token hnum ht with rfl | rfl | rfl | ⟨x, rfl⟩ <;> simp
  have hgroups : groups none ((kvg ++ cpGroups o).flatMap wrap) = kvg ++ cpGroups o := groups_flatMap _ fun g hg => numeric_noRb (hnum g hg)
  have hfk : (kvg ++ cpGroups o).filter (fun g => g.any isKv) = kvg := by
    rw [List.filter_append, List.filter_eq_self.2, List.filter_eq_nil_iff.2, List.append_nil]
    · intro g hg
      rw [(hcp g hg).2]
      simp
    · intro g hg
      obtain ⟨-, l, rfl⟩ := hkv g hg
      simp [isKv]
  have hfc : (kvg ++ cpGroups o).filter (fun g => !g.any isKv) = cpGroups o := by
    rw [List.filter_append, List.filter_eq_nil_iff.2, List.filter_eq_self.2, List.nil_append]
    · intro g hg
      rw [(hcp g hg).2]
      rfl
    · intro g hg
      obtain ⟨-, l, rfl⟩ := hkv g hg
      simp [isKv]
  have hnumbers : (cpGroups o).flatten.mapM valueOf = some (cpRows o).flatten := by
    rw [cpGroups_eq, show ((cpRows o).map fun r => r.map (Tok.num (K := K))).flatten = (cpRows o).flatten.map Tok.num by rw [List.map_flatten]]
    exact values_num _
  have hcoord : coordinates o.core.ws.isSome o.core.cps.dim (cpRows o).flatten = some (if o.core.ws.isSome then o.core.ws.getD [] else [], o.core.cps.rows) := by
    apply coordinates_rows o.core.ws.isSome o.core.cps.dim hdim1 o.core.cps.rows (cpRows o) (o.core.ws.getD []) hrect
    · intro hh
      obtain ⟨w, hw⟩ := Option.isSome_iff_exists.1 hh
      rw [hw]
      exact hwl w hw
    · intro hh
      obtain ⟨w, hw⟩ := Option.isSome_iff_exists.1 hh
      rw [hw]
      exact hweights w hw
    · unfold cpRows
      cases o.core.ws <;> rfl
  have hlen : (info o).length / 2 = (resolutions o.core).length ∨ isBSpline o.cls = false := by
    cases hh : isBSpline o.cls with
    | false => exact Or.inr rfl
    | true =>
      left
      simp only [info, hh, if_true, List.length_append, List.length_map, hresl]
      omega
  have horders : (if isBSpline o.cls then (info o).drop ((info o).length / 2) else info o) = o.core.degrees.map (· + 1) := by
    rcases hlen with hlen | hh
    · split
      · rename_i hh
        rw [hlen]
        simp only [info, hh, if_true]
        rw [List.drop_left]
      · rename_i hh
        simp [info, hh]
    · simp [info, hh]
  have hn : (if isBSpline o.cls then ((info o).take ((info o).length / 2)).prod else (info o).prod) = (o.core.cps.rows.length : Int) := by
    cases hh : isBSpline o.cls with
    | true =>
      rcases hlen with hlen | h0
      · rw [if_pos rfl, hlen, hprod]
        simp only [info, hh, if_true]
        rw [List.take_left]
      · rw [hh] at h0; cases h0
    | false =>
      simp only [info, hh, Bool.false_eq_true, if_false, List.nil_append]
      rw [hprod, resolutions]
      rw [hh] at hb
      rw [Option.isSome_eq_false_iff, Option.isNone_iff_eq_none] at hb
      rw [hb]
      rfl
  have hkvs : knotVectors (isBSpline o.cls) (o.core.degrees.map (· + 1)).length (kvg ++ cpGroups o) = some o.core.kvs := by
    cases hh : isBSpline o.cls with
    | false =>
      rw [hh] at hb
      rw [Option.isSome_eq_false_iff, Option.isNone_iff_eq_none] at hb
      rw [hb]
      rfl
    | true =>
      rw [hh] at hb
      obtain ⟨l, hl⟩ := Option.isSome_iff_exists.1 hb
      rw [hl]
      have e : kvg = l.map fun kv => Tok.kv :: kv.map .num := by
        unfold kvGroups at hkvg
        rw [if_pos hh, hl] at hkvg
        exact (Option.some.inj hkvg).symm
      unfold knotVectors
      simp only
      rw [if_neg (by simp), hfk, if_neg (by rw [e]; simp [hkl l hl]), e, List.map_map, List.mapM_map]
      have := Grid.mapM_eq_some_map' (fun kv : List K => (afterKv (Tok.kv :: kv.map Tok.num)).mapM valueOf) id l fun kv _ => by rw [afterKv_eq]; exact values_num kv
      rw [List.map_id] at this
      rw [show (l.mapM ((fun g => List.mapM valueOf g) ∘ afterKv ∘ fun kv => Tok.kv :: kv.map Tok.num)) = some l from this]
      rfl
  have hdict : loadDict (isBSpline o.cls) (body o kvg ++ junk) = some ⟨some o.core.degrees, o.core.kvs, some o.core.cps, o.core.ws⟩ := by
    unfold loadDict
    rw [hsplit]
    simp only [Option.bind_eq_bind, Option.bind_some, ints_int, hgroups, hfc, hnumbers, readDim_small hdim, hcoord, horders, hn, ne_eq, not_true, if_false, hkvs]
    congr 2
    · rw [List.map_map]
      congr 1
      conv_rhs => rw [← List.map_id o.core.degrees]
      exact List.map_congr_left fun d _ => by simp
    · cases o.core.ws <;> rfl
  rw [hdict, Option.bind_some]
  obtain ⟨s, hs, hc⟩ := reconstruct maxDim o hcon .spline (by
    refine ⟨rfl, rfl, ?_, ?_, ?_, ?_⟩ <;> simp [Cls.requiresKvs, Cls.requiresWs, Cls.takesKvs, Cls.takesWs])
  unfold dictToSpline
  rw [hs, Option.bind_some, hc]
  exact congrArg some (named_eq maxDim o hcon hcls)

/-- C82: every list of splines of the four kinds, whose points have at most nine components and whose weights are not zero, comes back from an irit file as it was: kinds, degrees,
knot vectors, control points, weights and order. -/
theorem irit_round_trip_partial (maxDim : ℕ) (objs : List (Obj K)) (h : ∀ o ∈ objs, Spec.Writable maxDim o) : (exportFile objs).bind (load maxDim) = some objs := by
  have hall : ∀ o ∈ objs, ∃ kvg, kvGroups o = some kvg := fun o ho => let ⟨k, hk, _⟩ := load_one maxDim o (h o ho); ⟨k, hk⟩
  have hexp : objs.mapM exportOne = some (objs.map fun o => [.lb, .word (paraDimKey o.core.degrees.length)] ++ .kind (isBSpline o.cls) :: body o ((kvGroups o).getD [])) := by
    refine Grid.mapM_eq_some_map' _ _ _ fun o ho => ?_
    obtain ⟨kvg, hk⟩ := hall o ho
    rw [exportOne_eq o kvg hk (h o ho).cls, hk]
    rfl
  unfold exportFile
  rw [hexp]
  simp only [Option.map_some, Option.bind_some]
  unfold load
  apply mapM_forall₂
  have key := splitKinds_items (K := K) (fun o : Obj K => [.lb, .word (paraDimKey o.core.degrees.length)]) (fun o => body o ((kvGroups o).getD [])) (fun o => isBSpline o.cls)
    (by
      intro o t ht b
      simp at ht
      rcases ht with rfl | rfl <;> simp)
    [.rb] (by intro t ht b; simp at ht; subst ht; simp) objs (by
      intro o ho t ht b
      obtain ⟨kvg, hk⟩ := hall o ho
      rw [hk] at ht
      simp only [Option.getD_some, body] at ht
      rcases List.mem_append.1 ht with ht | ht
      · obtain ⟨x, _, rfl⟩ := List.mem_map.1 ht
        simp
      · rcases List.mem_cons.1 ht with rfl | ht
        · simp
        · rcases List.mem_append.1 ht with ht | ht
          · have hnum : ∀ g ∈ kvg ++ cpGroups o, numeric g := by
              intro g hg
              rcases List.mem_append.1 hg with hg | hg
              · exact (kvGroups_numeric o kvg hk g hg).1
              · exact (cpGroups_numeric o g hg).1
            rcases wraps_token hnum ht with rfl | rfl | rfl | ⟨x, rfl⟩ <;> simp
          · rw [List.mem_singleton.1 ht]
            simp)
  have hsk := splitKinds_plain (K := K) [.lb, .word "object"] ((objs.map fun o => [.lb, .word (paraDimKey o.core.degrees.length)] ++ .kind (isBSpline o.cls) ::
    body o ((kvGroups o).getD [])).flatten ++ [.rb]) (by
      intro t ht b
      simp at ht
      rcases ht with rfl | rfl <;> simp)
  rw [show (Tok.lb :: Tok.word "object" :: (objs.map fun o => [Tok.lb, .word (paraDimKey o.core.degrees.length)] ++ .kind (isBSpline o.cls) ::
    body o ((kvGroups o).getD [])).flatten ++ [.rb]) = [.lb, .word "object"] ++ ((objs.map fun o => [Tok.lb, .word (paraDimKey o.core.degrees.length)] ++ .kind (isBSpline o.cls) ::
    body o ((kvGroups o).getD [])).flatten ++ [.rb]) from rfl, hsk, ← List.flatMap_def]
  simp only
  refine List.Forall₂.imp ?_ ((List.forall₂_and_left _ _).2 ⟨fun o ho => ho, key⟩)
  rintro o p ⟨ho, hp, junk, hj⟩
  obtain ⟨kvg, hk, hl⟩ := load_one maxDim o (h o ho)
  rw [hp, hj, hk]
  exact hl junk

/-! ### Cases -/

/-- the line of `Files.exampleNurbs`, with weights 1 and 2 -/
theorem exampleNurbs_writable : Spec.Writable 3 exampleNurbs where
  constructed := exampleNurbs_constructed
  cls := by decide
  dim := by decide
  weights := by
    intro ws h
    obtain rfl := Option.some.inj h
    decide

example : (exportFile [exampleNurbs, exampleNurbs]).bind (load 3) = some [exampleNurbs, exampleNurbs] :=
  irit_round_trip_partial 3 _ (by
    intro o ho
    simp only [List.mem_cons, List.not_mem_nil, or_false, or_self] at ho
    subst ho
    exact exampleNurbs_writable)

/-- C82 fails for objects of class `Spline`: they are written without their type, and the file is loaded without them. -/
theorem irit_spline_class_violates : Files.Spec.Constructed 3 exampleSplineClass ∧ (exportFile [exampleSplineClass]).bind (load 3) = some [] :=
  ⟨exampleSplineClass_constructed, by decide +kernel⟩

/-- a line in a space of ten dimensions -/
def exampleTen : Obj ℚ := ⟨.bspline, ⟨.bspline, [1], some [[0, 0, 1, 1]], ⟨10, [[0, 0, 0, 0, 0, 0, 0, 0, 0, 0], [1, 1, 1, 1, 1, 1, 1, 1, 1, 1]]⟩, none⟩⟩

theorem exampleTen_constructed : Files.Spec.Constructed 3 exampleTen := by
  refine ⟨⟨[1], some [[0, 0, 1, 1]], exampleTen.core.cps, none, ?_⟩, by decide⟩
  have hg : Given Cls.bspline ⟨some [1], some [[0, 0, 1, 1]], some exampleTen.core.cps, none⟩ := by
    refine ⟨rfl, rfl, ?_, ?_, ?_, ?_⟩ <;> simp [Cls.requiresKvs, Cls.requiresWs, Cls.takesKvs, Cls.takesWs]
  have hs := (construction_accepts_partial 3 Cls.bspline [1] exampleTen.core.cps (some [[0, 0, 1, 1]]) none hg).2 (by
    refine ⟨⟨by simp, ?_, by simp, by simp⟩, by simp [Splinepy.Spec.SupportedDims, exampleTen], by simp⟩
    intro l hl
    obtain rfl := Option.some.inj hl
    simp [Splinepy.Spec.KnotVectorsFit, exampleTen])
  obtain ⟨s, hs⟩ := Option.isSome_iff_exists.1 hs
  exact ⟨s, hg, hs, core_of_construct 3 _ _ _ _ _ hg s hs⟩

/-- C82 fails for points with ten components: the file is written, loading it raises. -/
theorem irit_dim_violates : Files.Spec.Constructed 3 exampleTen ∧ (exportFile [exampleTen]).isSome ∧ (exportFile [exampleTen]).bind (load 3) = none :=
  ⟨exampleTen_constructed, by decide +kernel, by decide +kernel⟩

/-! ### Tabs -/

/-- C83, what the code does: the file keeps its content, whatever it contains. -/
theorem expand_tabs_content (split : List Char → List Char × List Char) (disk disk' : Disk) (fname : List Char) (overwrite : Bool) (h : expandTabs split disk fname overwrite = some disk') :
    disk'.lookup fname = disk.lookup fname ∨ overwrite = false := by
  cases overwrite with
  | false => exact Or.inr rfl
  | true =>
    left
    unfold expandTabs at h
    obtain ⟨c, hc, rfl⟩ := Option.map_eq_some_iff.1 h
    simp [hc]

/-- C83 is false: a file with a tab keeps it. -/
theorem expand_tabs_violates : ∃ (disk disk' : Disk) (content : List Char), expandTabs (fun n => ([], n)) disk "a.itd".toList true = some disk' ∧
    disk'.lookup "a.itd".toList = some content ∧ '\t' ∈ content :=
  ⟨[("a.itd".toList, ['\t'])], _, ['\t'], rfl, by decide +kernel, by decide⟩

/-- C83 is false for copies: the copy of `d/a.itd` is written to `dcopy_a.itd`, not into the directory `d`. -/
theorem expand_tabs_copy_violates (split : List Char → List Char × List Char) (hs : split "d/a.itd".toList = ("d".toList, "a.itd".toList)) (content : List Char) :
    expandTabs split [("d/a.itd".toList, content)] "d/a.itd".toList false = some [("dcopy_a.itd".toList, content), ("d/a.itd".toList, content)] := by
  unfold expandTabs
  rw [hs]
  simp only [Bool.false_eq_true, if_false, List.lookup_cons_self, Option.map_some]
  rfl

end Splinepy.Irit
