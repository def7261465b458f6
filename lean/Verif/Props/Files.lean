import Verif.Model.Files
import Verif.Props.Construct
import Mathlib.Tactic.Ring
import Mathlib.Tactic.Linarith

/-!
C46: json and npz files give back the splines that were written.
-/
set_option linter.unusedSectionVars false
namespace Splinepy.Files
open SplineCore

variable {K : Type} [Field K] [LinearOrder K] [IsStrictOrderedRing K] {B : Type}

/-! ### specification -/

/-- The object came out of a constructor, and its control points are an array (rows of equal length). -/
def Spec.Constructed (maxDim : ℕ) (o : Obj K) : Prop :=
  (∃ ds kvs cps ws s, Given o.cls ⟨some ds, kvs, some cps, ws⟩ ∧ construct maxDim o.cls ⟨some ds, kvs, some cps, ws⟩ = some s ∧ s.core = some o.core) ∧
  ∀ r ∈ o.core.cps.rows, r.length = o.core.cps.dim

/-- The class of an object that names what its core is: an object of class `Spline` becomes one of the class of its core. -/
def Spec.named (o : Obj K) : Obj K := ⟨classOf o.core.kind, o.core⟩

/-! ### cores -/

theorem core_of_construct (maxDim : ℕ) (cls : Cls) (ds : List Int) (cps : Mat K) (kvs : Option (List (List K))) (ws : Option (List K))
    (hg : Given cls ⟨some ds, kvs, some cps, ws⟩) (s : State K) (hs : construct maxDim cls ⟨some ds, kvs, some cps, ws⟩ = some s) :
    s.core = some ⟨dispatch kvs.isSome ws.isSome, ds, kvs, cps, ws⟩ := by
  obtain ⟨c, hc, h1, h2, h3, h4, k1, k2, k3, k4, _⟩ := construction_kind maxDim cls ds cps kvs ws hg s hs
  rw [hc]
  obtain ⟨kind, d, k, p, w⟩ := c
  simp only at h1 h2 h3 h4 k1 k2 k3 k4
  subst h1 h2 h3 h4
  cases kind <;> cases k <;> cases w <;> simp_all [dispatch]

/-- Constructing an object of a class that takes the properties of a constructed core gives this core again. -/
theorem reconstruct (maxDim : ℕ) (o : Obj K) (h : Spec.Constructed maxDim o) (cls : Cls)
    (hg : Given cls ⟨some o.core.degrees, o.core.kvs, some o.core.cps, o.core.ws⟩) :
    ∃ s, construct maxDim cls ⟨some o.core.degrees, o.core.kvs, some o.core.cps, o.core.ws⟩ = some s ∧ s.core = some o.core := by
  obtain ⟨⟨ds, kvs, cps, ws, s, hg', hs, hc⟩, _⟩ := h
  have hcore := core_of_construct maxDim o.cls ds cps kvs ws hg' s hs
  rw [hc] at hcore
  have hcore := Option.some.inj hcore
  rw [hcore] at hg ⊢
  have hacc := (construction_accepts_partial maxDim o.cls ds cps kvs ws hg').1 (by rw [hs]; rfl)
  have hsome := (construction_accepts_partial maxDim cls ds cps kvs ws hg).2 hacc
  obtain ⟨s', hs'⟩ := Option.isSome_iff_exists.1 hsome
  exact ⟨s', hs', core_of_construct maxDim cls ds cps kvs ws hg s' hs'⟩

/-- What is known about a constructed core. -/
theorem constructed_facts (maxDim : ℕ) (o : Obj K) (h : Spec.Constructed maxDim o) :
    Given o.cls ⟨some o.core.degrees, o.core.kvs, some o.core.cps, o.core.ws⟩ ∧ 1 ≤ o.core.cps.dim ∧ 1 ≤ o.core.cps.rows.length ∧
    1 ≤ o.core.degrees.length ∧ (∀ l, o.core.kvs = some l → l.length = o.core.degrees.length) ∧
    o.core.kind = dispatch o.core.kvs.isSome o.core.ws.isSome := by
  obtain ⟨⟨ds, kvs, cps, ws, s, hg', hs, hc⟩, _⟩ := h
  have hcore := core_of_construct maxDim o.cls ds cps kvs ws hg' s hs
  rw [hc] at hcore
  have hcore := Option.some.inj hcore
  rw [hcore]
  obtain ⟨⟨h1, h2, h3, h4⟩, ⟨d1, d2, d3, d4⟩, _⟩ := (construction_accepts_partial maxDim o.cls ds cps kvs ws hg').1 (by rw [hs]; rfl)
  refine ⟨hg', d3, ?_, d1, fun l hl => (h2 l hl).1, rfl⟩
  have hpos : ∀ l : List Int, (∀ x ∈ l, 1 ≤ x) → 1 ≤ l.prod := by
    intro l
    induction l with
    | nil => simp
    | cons x xs ih =>
      intro hx
      rw [List.prod_cons]
      have a := hx x (by simp)
      have b := ih fun y hy => hx y (by simp [hy])
      nlinarith
  have : (1 : Int) ≤ cps.rows.length := by
    cases kvs with
    | none =>
      rw [h3 rfl]
      apply hpos
      intro x hx
      obtain ⟨d, hd, rfl⟩ := List.mem_map.1 hx
      have := h1 d hd
      omega
    | some l =>
      obtain ⟨_, e2, e3⟩ := h2 l rfl
      rw [e3]
      apply hpos
      intro x hx
      obtain ⟨dk, hdk, rfl⟩ := List.mem_map.1 hx
      have a := (e2 dk hdk).2
      have b := h1 dk.1 (List.of_mem_zip hdk).1
      omega
  show 1 ≤ cps.rows.length
  omega

/-! ### json -/

theorem reshape_flatten {dim : ℕ} (hd : 0 < dim) : ∀ (rows : List (List K)) (fuel : ℕ), (∀ r ∈ rows, r.length = dim) →
    rows.flatten.length ≤ fuel → reshape dim fuel rows.flatten = some rows
  | [], fuel, _, _ => by cases fuel <;> simp [reshape]
  | r :: rows, fuel, h, hf => by
    have hr : r.length = dim := h r (by simp)
    have hne : (r :: rows).flatten ≠ [] := by
      intro h0
      have h1 := (List.flatten_eq_nil_iff.1 h0) r (by simp)
      rw [h1] at hr
      simp at hr
      omega
    cases fuel with
    | zero =>
      simp at hf
      have := hf.1
      simp [this] at hr
      omega
    | succ fuel =>
      have hlen : (r :: rows).flatten.length = dim + rows.flatten.length := by simp [hr]
      rw [reshape, if_neg hne, if_neg (by omega)]
      have h1 : (r :: rows).flatten.drop dim = rows.flatten := by rw [List.flatten_cons, ← hr, List.drop_left]
      have h2 : (r :: rows).flatten.take dim = r := by rw [List.flatten_cons, ← hr, List.take_left]
      rw [h1, h2, reshape_flatten hd rows fuel (fun r' hr' => h r' (by simp [hr'])) (by omega)]
      rfl

theorem flatten_singletons (w : List K) : (w.map fun x => [x]).flatten = w := by
  induction w with
  | nil => rfl
  | cons x xs ih => simp [ih]

/-- The arrays that are read are the arrays that were written, in both encodings. -/
theorem arrayOf_nested (decode : B → List K) (rows : List (List K)) (dim d' : ℕ) (hne : 1 ≤ rows.length) (hr : ∀ r ∈ rows, r.length = dim) :
    arrayOf decode false d' (.nested rows) = some ⟨dim, rows⟩ := by
  cases rows with
  | nil => simp at hne
  | cons r rs => simp [arrayOf, hr r (by simp)]

theorem arrayOf_text (encode : List K → B) (decode : B → List K) (hcode : ∀ l, decode (encode l) = l) (rows : List (List K)) (dim : ℕ) (hd : 0 < dim)
    (hr : ∀ r ∈ rows, r.length = dim) : arrayOf decode true dim (.text (encode rows.flatten)) = some ⟨dim, rows⟩ := by
  rw [arrayOf, hcode, reshape_flatten hd rows _ hr le_rfl]
  rfl

/-- One spline. -/
theorem json_one (maxDim : ℕ) (encode : List K → B) (decode : B → List K) (hcode : ∀ l, decode (encode l) = l) (base64 : Bool) (o : Obj K)
    (h : Spec.Constructed maxDim o) (hcls : o.cls ≠ .spline) :
    (exportOne encode base64 o).bind (loadOne maxDim decode base64) = some o := by
  obtain ⟨hg, hdim, hrows, _, _, _⟩ := constructed_facts maxDim o h
  have hrect := h.2
  obtain ⟨s, hs, hc⟩ := reconstruct maxDim o h o.cls hg
  obtain ⟨cls, kind, ds, kvs, ⟨dim, rows⟩, ws⟩ := o
  simp only at hg hdim hrows hrect hs hc hcls
  obtain ⟨-, -, g3, g4, g5, g6⟩ := hg
  simp only at g3 g4 g5 g6
  have hk : cls.takesKvs = cls.requiresKvs := by cases cls <;> first | rfl | exact absurd rfl hcls
  have hw : cls.takesWs = cls.requiresWs := by cases cls <;> first | rfl | exact absurd rfl hcls
  have hkv : (if cls.requiresKvs then kvs else none) = kvs := by
    cases hq : cls.requiresKvs with
    | true => rfl
    | false => rw [g5 (by rw [hk, hq])]; rfl
  have hwv : ∀ w : Option (List K), w = ws → (if cls.requiresWs then w else none) = ws := by
    intro w hw'
    cases hq : cls.requiresWs with
    | true => simpa using hw'
    | false => rw [g6 (by rw [hw, hq])]; rfl
  have hkn : (cls.requiresKvs && kvs.isNone) = false := by
    cases hq : cls.requiresKvs with
    | true => have := g3 hq; cases kvs <;> simp_all
    | false => rfl
  have hwn : (cls.requiresWs && ws.isNone) = false := by
    cases hq : cls.requiresWs with
    | true => have := g4 hq; cases ws <;> simp_all
    | false => rfl
  have fin : ∀ (e : Entry K B), e.splineType = cls → e.degrees = ds → e.kvs = kvs → arrayOf decode base64 e.dim e.cps = some ⟨dim, rows⟩ →
      weightsOf decode base64 e.ws = some ws → loadOne maxDim decode base64 e = some ⟨cls, kind, ds, kvs, ⟨dim, rows⟩, ws⟩ := by
    intro e h1 h2 h3 h4 h5
    unfold loadOne
    rw [h4, h5]
    simp only [Option.bind_some, h1, h2, h3, hcls, if_false, hkn, hwn, hkv, hwv ws rfl, Bool.false_eq_true]
    rw [hs]
    simp [hc]
  cases base64 with
  | false =>
    simp only [exportOne, Bool.false_eq_true, if_false, Option.bind_some]
    apply fin _ rfl rfl rfl
    · exact arrayOf_nested decode rows dim dim hrows hrect
    · cases ws with
      | none => rfl
      | some w =>
        simp only [Option.map_some, weightsOf, arrayOf]
        simp [flatten_singletons]
  | true =>
    simp only [exportOne, if_true]
    cases hq : cls.takesWs with
    | true =>
      have := g4 (by rw [← hw, hq])
      cases ws with
      | none => simp at this
      | some w =>
        simp only [if_true, Option.map_some, Option.bind_some]
        apply fin _ rfl rfl rfl
        · exact arrayOf_text encode decode hcode rows dim (by omega) hrect
        · simp only [weightsOf]
          rw [arrayOf_text encode decode hcode _ 1 (by norm_num) (by intro r hr; obtain ⟨x, _, rfl⟩ := List.mem_map.1 hr; rfl)]
          simp [flatten_singletons]
    | false =>
      have hnone : ws = none := g6 hq
      subst hnone
      simp only [Bool.false_eq_true, if_false, Option.bind_some, Option.map_none]
      apply fin _ rfl rfl rfl
      · exact arrayOf_text encode decode hcode rows dim (by omega) hrect
      · rfl

theorem mapM_bind_eq {α β : Type} (f : α → Option β) (g : β → Option α) : ∀ (l : List α), (∀ x ∈ l, (f x).bind g = some x) →
    (l.mapM f).bind (fun bs => bs.mapM g) = some l
  | [], _ => rfl
  | x :: xs, h => by
    have hx := h x (by simp)
    have ih := mapM_bind_eq f g xs fun y hy => h y (by simp [hy])
    cases hf : f x with
    | none => rw [hf] at hx; cases hx
    | some b =>
      rw [hf] at hx
      simp only [Option.bind_some] at hx
      cases hm : xs.mapM f with
      | none => rw [hm] at ih; cases ih
      | some bs =>
        rw [hm] at ih
        simp only [Option.bind_some] at ih
        simp [List.mapM_cons, hf, hm, hx, ih]

/-- C46, json: a list of splines of the four kinds, each made by a constructor, written to a file and loaded is the same list of splines (classes, degrees,
knot vectors, control points and weights), with and without base64 encoding. Missing: objects of the class `Spline` (see `json_spline_class_violates`) and
splines whose knots have been moved below -1 (`json_moved_knots_violates`). -/
theorem json_round_trip_partial (maxDim : ℕ) (encode : List K → B) (decode : B → List K) (hcode : ∀ l, decode (encode l) = l) (base64 : Bool)
    (objs : List (Obj K)) (h : ∀ o ∈ objs, Spec.Constructed maxDim o ∧ o.cls ≠ .spline) :
    (jsonExport encode base64 objs).bind (jsonLoad maxDim decode) = some objs := by
  have := mapM_bind_eq (exportOne encode base64) (loadOne maxDim decode base64) objs fun o ho => json_one maxDim encode decode hcode base64 o (h o ho).1 (h o ho).2
  unfold jsonExport jsonLoad
  cases hm : objs.mapM (exportOne encode base64) with
  | none => rw [hm] at this; cases this
  | some es => rw [hm] at this; exact this

/-! ### npz -/

theorem lookup_append {α β : Type} [BEq α] (a b : List (α × β)) (k : α) : (a ++ b).lookup k = (a.lookup k).or (b.lookup k) := by
  induction a with
  | nil => simp
  | cons x xs ih =>
    obtain ⟨k', v⟩ := x
    simp only [List.cons_append, List.lookup_cons]
    cases k == k' <;> simp [ih]

theorem lookup_none {α β : Type} [BEq α] [LawfulBEq α] (a : List (α × β)) (k : α) (h : ∀ x ∈ a, x.1 ≠ k) : a.lookup k = none := by
  induction a with
  | nil => rfl
  | cons x xs ih =>
    obtain ⟨k', v⟩ := x
    have : (k == k') = false := by
      rw [beq_eq_false_iff_ne]
      exact fun e => h (k', v) (by simp) e.symm
    rw [List.lookup_cons, this]
    exact ih fun y hy => h y (by simp [hy])

/-- Number of the spline a key belongs to. -/
def Key.owner : Key → Option ℕ
  | .number => none
  | .degrees i => some i
  | .cps i => some i
  | .ws i => some i
  | .kv i _ => some i

theorem entries_owner (i : ℕ) (o : Obj K) : ∀ x ∈ entries i o, x.1.owner = some i := by
  intro x hx
  unfold entries at hx
  rcases List.mem_append.1 hx with hx | hx
  · rcases List.mem_append.1 hx with hx | hx
    · simp at hx
      rcases hx with rfl | rfl <;> rfl
    · cases hw : o.core.ws with
      | none => rw [hw] at hx; cases hx
      | some w => rw [hw] at hx; unfold wsEntries at hx; simp at hx; rw [hx]; rfl
  · cases hk : o.core.kvs with
    | none => rw [hk] at hx; cases hx
    | some l =>
      rw [hk] at hx
      obtain ⟨j, _, rfl⟩ := List.mem_map.1 hx
      rfl

theorem lookup_flatMap (objs : List (Obj K)) (i : ℕ) (o : Obj K) (ho : objs[i]? = some o) (k : Key) (hk : k.owner = some i) : ∀ (n s : ℕ),
    s ≤ i → i < s + n →
    (((List.range n).map (s + ·)).flatMap (entriesAt objs)).lookup k = (entries i o).lookup k
  | 0, s, h1, h2 => by omega
  | n + 1, s, h1, h2 => by
    have hr : ((List.range (n + 1)).map (s + ·)) = s :: ((List.range n).map (s + 1 + ·)) := by
      rw [List.range_succ_eq_map, List.map_cons, List.map_map]
      simp only [Nat.add_zero, List.cons.injEq, true_and]
      apply List.map_congr_left
      intro a _
      simp
      omega
    rw [hr, List.flatMap_cons, lookup_append]
    by_cases hs : s = i
    · subst hs
      have hat : entriesAt objs s = entries s o := by simp [entriesAt, ho]
      rw [hat]
      have hrest : ∀ x ∈ (((List.range n).map (s + 1 + ·)).flatMap (entriesAt objs)), x.1 ≠ k := by
        intro x hx e
        obtain ⟨j, hj, hx⟩ := List.mem_flatMap.1 hx
        obtain ⟨b, _, rfl⟩ := List.mem_map.1 hj
        unfold entriesAt at hx
        cases hq : objs[s + 1 + b]? with
        | none => simp [hq] at hx
        | some o' =>
          simp only [hq] at hx
          have := entries_owner _ o' x hx
          rw [e, hk] at this
          have := Option.some.inj this
          omega
      rw [lookup_none _ k hrest]
      simp
    · have hne : (entriesAt objs s).lookup k = none := by
        apply lookup_none
        intro x hx e
        unfold entriesAt at hx
        cases hq : objs[s]? with
        | none => simp [hq] at hx
        | some o' =>
          simp only [hq] at hx
          have := entries_owner _ o' x hx
          rw [e, hk] at this
          exact hs (Option.some.inj this).symm
      rw [hne, Option.none_or]
      exact lookup_flatMap objs i o ho k hk n (s + 1) (by omega) (by omega)

theorem archive_lookup (objs : List (Obj K)) (i : ℕ) (o : Obj K) (ho : objs[i]? = some o) (k : Key) (hk : k.owner = some i) :
    (archive objs).lookup k = (entries i o).lookup k := by
  have hi : i < objs.length := by
    by_contra h
    rw [List.getElem?_eq_none (by omega)] at ho
    cases ho
  unfold archive
  have hne : (k == Key.number) = false := by
    rw [beq_eq_false_iff_ne]
    rintro rfl
    cases hk
  rw [List.lookup_cons, hne]
  have := lookup_flatMap objs i o ho k hk objs.length 0 (by omega) (by omega)
  simpa using this

theorem lookup_kvs (i : ℕ) (l : List (List K)) (n j : ℕ) (hj : j < n) :
    ((List.range n).map fun j => (Key.kv i j, Arr.reals (l.getD j []))).lookup (Key.kv i j) = some (Arr.reals (l.getD j [])) := by
  have hsplit : List.range n = List.range j ++ (j :: (List.range (n - j - 1)).map (j + 1 + ·)) := by
    conv_lhs => rw [show n = j + (1 + (n - j - 1)) by omega, List.range_add, List.range_add]
    simp [Function.comp_def, Nat.add_assoc]
  rw [hsplit, List.map_append, List.map_cons, lookup_append, lookup_none, Option.none_or, List.lookup_cons]
  · simp
  · intro x hx e
    obtain ⟨b, hb, rfl⟩ := List.mem_map.1 hx
    rw [List.mem_range] at hb
    simp at e
    omega

/-- The dictionary read for spline `i` holds the properties of its core. -/
theorem npzDict_archive (maxDim : ℕ) (objs : List (Obj K)) (i : ℕ) (o : Obj K) (ho : objs[i]? = some o) (h : Spec.Constructed maxDim o) :
    npzDict (archive objs) i = some ⟨some o.core.degrees, o.core.kvs, some o.core.cps, o.core.ws⟩ := by
  obtain ⟨_, _, _, hdeg, hk, _⟩ := constructed_facts maxDim o h
  have L := fun k hk => archive_lookup objs i o ho k hk
  have e1 : (archive objs).lookup (.cps i) = some (.mat o.core.cps) := by
    rw [L _ rfl]
    unfold entries
    rw [lookup_append, lookup_append, List.lookup_cons, show (Key.cps i == Key.degrees i) = false by simp]
    simp
  have e2 : (archive objs).lookup (.degrees i) = some (.ints o.core.degrees) := by
    rw [L _ rfl]
    simp [entries]
  have hkvsnone : ∀ k : Key, (∀ j, k ≠ .kv i j) →
      (kvEntries i o.core.degrees.length o.core.kvs).lookup k = none := by
    intro k hne
    apply lookup_none
    intro x hx e
    cases hq : o.core.kvs with
    | none => rw [hq] at hx; cases hx
    | some l =>
      rw [hq] at hx
      obtain ⟨j, _, rfl⟩ := List.mem_map.1 hx
      exact hne j e.symm
  have e3 : realsAt (archive objs) (.ws i) = o.core.ws := by
    unfold realsAt
    rw [L _ rfl]
    unfold entries
    rw [lookup_append, hkvsnone _ (by intro j; simp), Option.or_none]
    rw [lookup_append, lookup_none _ _ (by intro x hx; simp at hx; rcases hx with rfl | rfl <;> simp), Option.none_or]
    cases o.core.ws with
    | none => rfl
    | some w => simp [wsEntries]
  have e4 : ∀ j, j < o.core.degrees.length → (archive objs).lookup (.kv i j) = o.core.kvs.map fun l => Arr.reals (l.getD j []) := by
    intro j hj
    rw [L _ rfl]
    unfold entries
    rw [lookup_append, lookup_append]
    have n1 : ([(Key.degrees i, Arr.ints o.core.degrees), (Key.cps i, Arr.mat o.core.cps)] : List (Key × Arr K)).lookup (.kv i j) = none := by
      apply lookup_none
      intro x hx
      simp at hx
      rcases hx with rfl | rfl <;> simp
    have n2 : (wsEntries i o.core.ws).lookup (Key.kv i j) = none := by
      cases o.core.ws with
      | none => rfl
      | some w => exact lookup_none _ _ (by intro x hx; simp [wsEntries] at hx; subst hx; simp)
    rw [n1, n2]
    simp only [Option.none_or]
    cases o.core.kvs with
    | none => rfl
    | some l => exact lookup_kvs i l _ j hj
  unfold npzDict
  rw [e1, e2]
  simp only [e3]
  rw [e4 0 (by omega)]
  cases hq : o.core.kvs with
  | none => rfl
  | some l =>
    simp only [Option.map_some]
    have hl := hk l hq
    have hm : (List.range o.core.degrees.length).mapM (fun j => realsAt (archive objs) (.kv i j)) = some l := by
      have hall : ∀ (js : List ℕ), (∀ j ∈ js, j < o.core.degrees.length) → js.mapM (fun j => realsAt (archive objs) (.kv i j)) = some (js.map fun j => l.getD j []) := by
        intro js
        induction js with
        | nil => intro _; rfl
        | cons j js ih =>
          intro hj
          have h1 : realsAt (archive objs) (.kv i j) = some (l.getD j []) := by
            unfold realsAt
            rw [e4 j (hj j (by simp)), hq]
            rfl
          rw [List.mapM_cons, h1, ih fun a ha => hj a (by simp [ha])]
          rfl
      rw [hall _ fun j hj => List.mem_range.1 hj]
      congr 1
      apply List.ext_getElem (by simp [hl])
      intro a h1 h2
      simp [h2]
    rw [hm]
    rfl

/-- C46, npz: a list of splines made by constructors, written to a file whose name ends with `.npz` and loaded, is the same list; each spline has the class of its
kind. Missing: other file names (`npz_name_violates`). -/
theorem npz_round_trip_partial (maxDim : ℕ) (fs : FileSystem K) (fname : List Char) (hname : ".npz".toList.isSuffixOf fname = true) (objs : List (Obj K))
    (h : ∀ o ∈ objs, Spec.Constructed maxDim o) : npzLoad maxDim (npzExport fs fname objs) fname = some (objs.map Spec.named) := by
  have hread : FileSystem.read (npzExport fs fname objs) fname = some (archive objs) := by
    unfold FileSystem.read npzExport savezName
    rw [if_pos hname, List.lookup_cons_self]
  unfold npzLoad
  rw [hread]
  have hn : (archive objs).lookup .number = some (.int objs.length) := by
    unfold archive
    rw [List.lookup_cons_self]
  simp only [Option.bind_some, hn]
  have key : ∀ i < objs.length, (npzDict (archive objs) i).bind (dictToSpline maxDim) = (objs[i]?).map Spec.named := by
    intro i hi
    have ho : objs[i]? = some objs[i] := List.getElem?_eq_getElem hi
    have hc := h objs[i] (List.getElem_mem hi)
    rw [npzDict_archive maxDim objs i _ ho hc, ho]
    have hg : Given Cls.spline ⟨some objs[i].core.degrees, objs[i].core.kvs, some objs[i].core.cps, objs[i].core.ws⟩ := by
      refine ⟨rfl, rfl, ?_, ?_, ?_, ?_⟩ <;> simp [Cls.requiresKvs, Cls.requiresWs, Cls.takesKvs, Cls.takesWs]
    obtain ⟨s, hs, hcore⟩ := reconstruct maxDim objs[i] hc .spline hg
    simp only [Option.bind_some, dictToSpline, hs, hcore, Option.map_some]
    rfl
  have hall : ∀ (js : List ℕ), (∀ j ∈ js, j < objs.length) →
      js.mapM (fun i => (npzDict (archive objs) i).bind (dictToSpline maxDim)) = js.mapM fun i => (objs[i]?).map Spec.named := by
    intro js
    induction js with
    | nil => intro _; rfl
    | cons j js ih =>
      intro hj
      rw [List.mapM_cons, List.mapM_cons, key j (hj j (by simp)), ih fun a ha => hj a (by simp [ha])]
  rw [hall _ fun j hj => List.mem_range.1 hj]
  have hfin : ∀ (pre l : List (Obj K)), ((List.range l.length).map (pre.length + ·)).mapM (fun i => ((pre ++ l)[i]?).map Spec.named) = some (l.map Spec.named) := by
    intro pre l
    induction l generalizing pre with
    | nil => rfl
    | cons o l ih =>
      have hr : ((List.range (o :: l).length).map (pre.length + ·)) = pre.length :: ((List.range l.length).map ((pre ++ [o]).length + ·)) := by
        rw [List.length_cons, List.range_succ_eq_map, List.map_cons, List.map_map]
        simp only [Nat.add_zero, List.cons.injEq, true_and]
        apply List.map_congr_left
        intro a _
        simp
        omega
      have := ih (pre ++ [o])
      rw [List.append_assoc, List.singleton_append] at this
      rw [hr, List.mapM_cons, this]
      simp
  have := hfin [] objs
  simpa using this

/-- An object of one of the four classes comes back with its class. -/
theorem named_eq (maxDim : ℕ) (o : Obj K) (h : Spec.Constructed maxDim o) (hcls : o.cls ≠ .spline) : Spec.named o = o := by
  obtain ⟨hg, _, _, _, _, hk⟩ := constructed_facts maxDim o h
  obtain ⟨cls, kind, ds, kvs, cps, ws⟩ := o
  obtain ⟨-, -, g3, g4, g5, g6⟩ := hg
  simp only at g3 g4 g5 g6 hk hcls
  subst hk
  cases kvs <;> cases ws <;> cases cls <;> simp_all [Spec.named, classOf, dispatch, Cls.requiresKvs, Cls.requiresWs, Cls.takesKvs, Cls.takesWs]

/-- C46, npz: objects of the four kinds come back unchanged. -/
theorem npz_round_trip_typed_partial (maxDim : ℕ) (fs : FileSystem K) (fname : List Char) (hname : ".npz".toList.isSuffixOf fname = true) (objs : List (Obj K))
    (h : ∀ o ∈ objs, Spec.Constructed maxDim o ∧ o.cls ≠ .spline) : npzLoad maxDim (npzExport fs fname objs) fname = some objs := by
  rw [npz_round_trip_partial maxDim fs fname hname objs fun o ho => (h o ho).1]
  congr 1
  conv_rhs => rw [← List.map_id objs]
  exact List.map_congr_left fun o ho => named_eq maxDim o (h o ho).1 (h o ho).2

/-! ### cases -/

/-- A straight line as NURBS. -/
def exampleNurbs : Obj ℚ := ⟨.nurbs, ⟨.nurbs, [1], some [[0, 0, 1, 1]], ⟨2, [[0, 0], [1, 2]]⟩, some [1, 2]⟩⟩

theorem exampleNurbs_constructed : Spec.Constructed 3 exampleNurbs := by
  refine ⟨⟨[1], some [[0, 0, 1, 1]], ⟨2, [[0, 0], [1, 2]]⟩, some [1, 2], ?_⟩, by decide⟩
  have hg : Given Cls.nurbs ⟨some [1], some [[0, 0, 1, 1]], some (⟨2, [[0, 0], [1, 2]]⟩ : Mat ℚ), some [1, 2]⟩ := by
    refine ⟨rfl, rfl, ?_, ?_, ?_, ?_⟩ <;> simp [Cls.requiresKvs, Cls.requiresWs, Cls.takesKvs, Cls.takesWs]
  have hs := (construction_accepts_partial 3 Cls.nurbs [1] (⟨2, [[0, 0], [1, 2]]⟩ : Mat ℚ) (some [[0, 0, 1, 1]]) (some [1, 2]) hg).2 (by
    refine ⟨⟨by simp, ?_, by simp, by simp⟩, by simp [Spec.SupportedDims], by simp⟩
    intro l hl
    obtain rfl := Option.some.inj hl
    simp [Spec.KnotVectorsFit])
  obtain ⟨s, hs⟩ := Option.isSome_iff_exists.1 hs
  exact ⟨s, hg, hs, core_of_construct 3 _ _ _ _ _ hg s hs⟩

example (base64 : Bool) : (jsonExport id base64 [exampleNurbs, exampleNurbs]).bind (jsonLoad 3 id) = some [exampleNurbs, exampleNurbs] :=
  json_round_trip_partial 3 id id (fun _ => rfl) base64 _ (by intro o ho; simp at ho; subst ho; exact ⟨exampleNurbs_constructed, by decide⟩)

example : npzLoad 3 (npzExport [] "a.npz".toList [exampleNurbs]) "a.npz".toList = some [exampleNurbs] := by
  rw [npz_round_trip_partial 3 [] _ (by decide) _ (by intro o ho; simp at ho; subst ho; exact exampleNurbs_constructed)]
  rfl

/-- C46 fails for file names without the extension: what was written to `a` cannot be loaded from `a`. -/
theorem npz_name_violates : Spec.Constructed 3 exampleNurbs ∧ npzLoad 3 (npzExport [] "a".toList [exampleNurbs]) "a".toList = none :=
  ⟨exampleNurbs_constructed, rfl⟩

/-- A line of class `Spline`. -/
def exampleSplineClass : Obj ℚ := ⟨.spline, ⟨.bspline, [1], some [[0, 0, 1, 1]], ⟨1, [[0], [1]]⟩, none⟩⟩

theorem exampleSplineClass_constructed : Spec.Constructed 3 exampleSplineClass := by
  refine ⟨⟨[1], some [[0, 0, 1, 1]], ⟨1, [[0], [1]]⟩, none, ?_⟩, by decide⟩
  have hg : Given Cls.spline ⟨some [1], some [[0, 0, 1, 1]], some (⟨1, [[0], [1]]⟩ : Mat ℚ), none⟩ := by
    refine ⟨rfl, rfl, ?_, ?_, ?_, ?_⟩ <;> simp [Cls.requiresKvs, Cls.requiresWs, Cls.takesKvs, Cls.takesWs]
  have hs := (construction_accepts_partial 3 Cls.spline [1] (⟨1, [[0], [1]]⟩ : Mat ℚ) (some [[0, 0, 1, 1]]) none hg).2 (by
    refine ⟨⟨by simp, ?_, by simp, by simp⟩, by simp [Spec.SupportedDims], by simp⟩
    intro l hl
    obtain rfl := Option.some.inj hl
    simp [Spec.KnotVectorsFit])
  obtain ⟨s, hs⟩ := Option.isSome_iff_exists.1 hs
  exact ⟨s, hg, hs, core_of_construct 3 _ _ _ _ _ hg s hs⟩

/-- C46 fails for objects of the class `Spline`: the json file cannot be loaded, and with base64 encoding it is not even written. -/
theorem json_spline_class_violates : Spec.Constructed 3 exampleSplineClass ∧
    (∃ f, jsonExport (B := List ℚ) id false [exampleSplineClass] = some f ∧ jsonLoad 3 id f = none) ∧
    jsonExport (B := List ℚ) id true [exampleSplineClass] = none :=
  ⟨exampleSplineClass_constructed, ⟨_, rfl, rfl⟩, rfl⟩

/-- C46 fails for a spline whose knots have been moved below -1 (for example by scaling its knot vector): the file is written but cannot be loaded. -/
theorem json_moved_knots_violates :
    let o : Obj ℚ := ⟨.bspline, ⟨.bspline, [1], some [[-3, -3, 1, 1]], ⟨1, [[0], [1]]⟩, none⟩⟩
    ∃ f, jsonExport (B := List ℚ) id false [o] = some f ∧ jsonLoad 3 id f = none :=
  ⟨_, rfl, by decide +kernel⟩

end Splinepy.Files
