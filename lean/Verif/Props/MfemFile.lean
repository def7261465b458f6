import Verif.Props.MfemDof
import Verif.Lemma.Grid

/-!
C80: a NURBS exported to an MFEM file and loaded again is unchanged. `read_solution` puts the control points of a solution in their places, but permutes the weights of the
reference spline.
-/
namespace Splinepy.Mfem
open Splinepy.Spec Splinepy.Index

/-! ### Specification -/

/-- A surface or volume with clamped or unclamped knot vectors, at least two control points per direction, one weight per control point, and at least one component per control
point. -/
structure Spec.Patch {K : Type} (s : Spline K (List K)) (kvs : List (List K)) (ws : List K) : Prop where
  paraDim : s.degrees.length = 2 ∨ s.degrees.length = 3
  knots : s.knotVectors = some kvs
  weights : s.weights = some ws
  knotVectors_length : kvs.length = s.degrees.length
  two : ∀ r ∈ controlMeshResolutions s, 2 ≤ r
  count : s.controlPoints.length = (controlMeshResolutions s).prod
  weights_length : ws.length = s.controlPoints.length
  components : ∀ c ∈ s.controlPoints, c ≠ []

open Spec

/-! ### Permutations of lists -/

theorem take_eq {α : Type} (l : List α) (d : α) {ids : List ℕ} (h : ∀ i ∈ ids, i < l.length) : take l ids = some (ids.map fun i => l.getD i d) := by
  unfold take
  refine Grid.mapM_eq_some_map' _ _ _ fun i hi => ?_
  rw [List.getD_eq_getElem l _ (h i hi), List.getElem?_eq_getElem (h i hi)]

theorem take_take {α : Type} (l : List α) {fwd back : List ℕ} (h : InversePermutations l.length fwd back) :
    ∃ m, take l fwd = some m ∧ m.length = l.length ∧ take m back = some l ∧ ∀ x ∈ m, x ∈ l := by
  obtain ⟨hf, hb, h1, h2⟩ := h
  have lf : fwd.length = l.length := by rw [hf.length_eq, List.length_range]
  have lb : back.length = l.length := by rw [hb.length_eq, List.length_range]
  have bf : ∀ i ∈ fwd, i < l.length := fun i hi => List.mem_range.1 (hf.mem_iff.1 hi)
  have bb : ∀ i ∈ back, i < l.length := fun i hi => List.mem_range.1 (hb.mem_iff.1 hi)
  rcases l with - | ⟨d, l⟩
  · rw [List.length_nil] at lf lb
    rw [List.length_eq_zero_iff] at lf lb
    subst lf lb
    exact ⟨[], rfl, rfl, rfl, by simp⟩
  · generalize e : d :: l = m at *
    refine ⟨_, take_eq m d bf, by simp [lf], ?_, ?_⟩
    · rw [take_eq _ d (fun i hi => by rw [List.length_map, lf]; exact bb i hi)]
      congr 1
      apply List.ext_getElem
      · simp [lb]
      · intro i hi hi'
        have hb' : back[i]'(by rw [lb]; exact hi') < m.length := bb _ (List.getElem_mem _)
        have e2 := h2 i hi'
        rw [List.getD_eq_getElem back _ (by rw [lb]; exact hi'), List.getD_eq_getElem fwd _ (by rw [lf]; exact hb')] at e2
        have hb'' : back[i]'(by rw [lb]; exact hi') < (fwd.map fun i => m.getD i d).length := lt_of_lt_of_eq hb' (by simp [lf])
        rw [List.getElem_map, List.getD_eq_getElem (fwd.map _) _ hb'', List.getElem_map]
        generalize fwd[back[i]'(by rw [lb]; exact hi')]'(by rw [lf]; exact hb') = j at e2
        subst e2
        rw [List.getD_eq_getElem m _ hi']
    · intro x hx
      obtain ⟨i, hi, rfl⟩ := List.mem_map.1 hx
      rw [List.getD_eq_getElem m _ (bf i hi)]
      exact List.getElem_mem _

/-! ### Sections -/
set_option linter.unusedSectionVars false

section
variable {K : Type} [Field K]

theorem read_header (d : ℕ) (head : List (Line K)) (h : header d = some head) : head.foldl readLine ⟨none, [], [], []⟩ = ⟨none, [], [], []⟩ := by
  unfold header at h
  simp only at h
  split at h
  · injection h with h
    subst h
    simp [readLine, meaningless, hotkeys, keywords, Sections.add]
  · split at h
    · injection h with h
      subst h
      simp [readLine, meaningless, hotkeys, keywords, Sections.add]
    · simp at h

theorem foldl_add (rows : List (Line K)) (hr : ∀ l ∈ rows, (∃ n t, l = Token.int n :: t) ∨ ∃ x t, l = Token.num x :: t) (d : Sections K) :
    rows.foldl readLine d = rows.foldl Sections.add d := by
  induction rows generalizing d with
  | nil => rfl
  | cons l rows ih =>
    rw [List.foldl_cons, List.foldl_cons, ih fun l hl => hr l (by simp [hl])]
    congr 1
    rcases hr l (by simp) with ⟨n, t, rfl⟩ | ⟨x, t, rfl⟩ <;> rfl

theorem add_knots (rows : List (Line K)) (k w o : List (Line K)) : rows.foldl Sections.add ⟨some "knotvectors", k, w, o⟩ = ⟨some "knotvectors", k ++ rows, w, o⟩ := by
  induction rows generalizing k with
  | nil => simp
  | cons l rows ih => rw [List.foldl_cons]; simp only [Sections.add]; rw [ih]; simp

theorem add_weights (rows : List (Line K)) (k w o : List (Line K)) : rows.foldl Sections.add ⟨some "weights", k, w, o⟩ = ⟨some "weights", k, w ++ rows, o⟩ := by
  induction rows generalizing w with
  | nil => simp
  | cons l rows ih => rw [List.foldl_cons]; simp only [Sections.add]; rw [ih]; simp

theorem add_ordering (rows : List (Line K)) (k w o : List (Line K)) : rows.foldl Sections.add ⟨some "Ordering", k, w, o⟩ = ⟨some "Ordering", k, w, o ++ rows⟩ := by
  induction rows generalizing o with
  | nil => simp
  | cons l rows ih => rw [List.foldl_cons]; simp only [Sections.add]; rw [ih]; simp

theorem read_blank (d : Sections K) : readLine d [] = d := rfl

theorem read_hot (d : Sections K) (w : String) (t : Line K) (h : w ∈ hotkeys) : readLine d (.word w :: t) = { d with current := some w } := by
  simp [readLine, meaningless, h]

theorem read_other (d : Sections K) (w : String) (t : Line K) (h : w ∉ hotkeys) (h' : w ∈ keywords) : readLine d (.word w :: t) = { d with current := none } := by
  simp [readLine, meaningless, h, h']

/-- rows of knot vectors -/
def knotRows (degrees res : List ℕ) (kvs : List (List K)) : List (Line K) :=
  List.zipWith (fun (p : ℕ × ℕ) kv => Token.int p.1 :: Token.int p.2 :: kv.map Token.num) (degrees.zip res) kvs

theorem parse_values (l : List K) : (l.map Token.num).mapM Token.value = some l := by
  induction l with
  | nil => rfl
  | cons x l ih => rw [List.map_cons, List.mapM_cons, ih]; rfl

theorem parse_rows : ∀ (degrees res : List ℕ) (kvs : List (List K)), degrees.length = kvs.length → res.length = kvs.length →
    (knotRows degrees res kvs).mapM parseKnots = some (List.zipWith (fun (p : ℕ × ℕ) kv => (p.1, p.2, kv)) (degrees.zip res) kvs)
  | [], [], [], _, _ => rfl
  | [], _ :: _, [], _, h => by simp at h
  | _ :: _, [], [], h, _ => by simp at h
  | d :: ds, r :: rs, kv :: kvs, h, h' => by
    have ih := parse_rows ds rs kvs (by simpa using h) (by simpa using h')
    unfold knotRows at ih ⊢
    rw [List.zip_cons_cons, List.zipWith_cons_cons, List.mapM_cons, ih]
    simp only [parseKnots, parse_values]
    rfl

theorem rows_degrees : ∀ (degrees res : List ℕ) (kvs : List (List K)), degrees.length = kvs.length → res.length = kvs.length →
    ((List.zipWith (fun (p : ℕ × ℕ) kv => (p.1, p.2, kv)) (degrees.zip res) kvs).map fun r => r.1) = degrees ∧
    ((List.zipWith (fun (p : ℕ × ℕ) kv => (p.1, p.2, kv)) (degrees.zip res) kvs).map fun r => r.2.1) = res ∧
    ((List.zipWith (fun (p : ℕ × ℕ) kv => (p.1, p.2, kv)) (degrees.zip res) kvs).map fun r => r.2.2) = kvs
  | [], [], [], _, _ => ⟨rfl, rfl, rfl⟩
  | [], _ :: _, [], _, h => by simp at h
  | _ :: _, [], [], h, _ => by simp at h
  | d :: ds, r :: rs, kv :: kvs, h, h' => by
    obtain ⟨h1, h2, h3⟩ := rows_degrees ds rs kvs (by simpa using h) (by simpa using h')
    simp only [List.zip_cons_cons, List.zipWith_cons_cons, List.map_cons, h1, h2, h3, and_self]

/-- C80: loading an exported surface or volume gives the same spline: degrees, knot vectors, weights and control points, each in its place. -/
theorem load_export (s : Spline K (List K)) (kvs : List (List K)) (ws : List K) (h : Patch s kvs ws) : ∃ f, exportFile s = some f ∧ load f = some s := by
  obtain ⟨degrees, knots, weights, cps⟩ := s
  obtain ⟨hd, hk, hw, hkl, h2, hn, hwl, hc⟩ := h
  simp only at hd hk hw hkl hn hwl hc
  subst hk hw
  have hres : (controlMeshResolutions (⟨degrees, some kvs, some ws, cps⟩ : Spline K (List K))).length = degrees.length := by simp [controlMeshResolutions, hkl]
  obtain ⟨fwd, back, hm, good⟩ := dof_mapping_order (controlMeshResolutions (⟨degrees, some kvs, some ws, cps⟩ : Spline K (List K))) (by rw [hres]; exact hd) h2
  have inv := good.1
  rw [← hn] at inv
  obtain ⟨c, hc1, hcl, hc2, hcm⟩ := take_take cps inv
  rw [← hwl] at inv
  obtain ⟨w, hw1, hwl', hw2, hwm⟩ := take_take ws inv
  obtain ⟨head, hhead⟩ : ∃ head : List (Line K), header degrees.length = some head := by
    rcases hd with hd | hd <;> rw [hd] <;> exact ⟨_, rfl⟩
  refine ⟨_, by simp only [exportFile, hhead, hm, hw1, hc1, Option.bind_eq_bind, Option.bind_some]; rfl, ?_⟩
  set res := controlMeshResolutions (⟨degrees, some kvs, some ws, cps⟩ : Spline K (List K)) with eres
  have hsec : List.foldl readLine (⟨none, [], [], []⟩ : Sections K) (head ++ knotLines degrees res kvs ++ ([[.word "weights"]] ++ w.map (fun x => [.num x]) ++ [[]])
    ++ [[.word "FiniteElementSpace"], [.word "FiniteElementCollection", .word "NURBS"], [.word "VDim", .int ((cps.getD 0 []).length)], [.word "Ordering", .int 1], []]
    ++ (c.map (fun r => r.map Token.num) ++ [[]]))
      = ⟨some "Ordering", [.int kvs.length] :: knotRows degrees res kvs, w.map (fun x => [.num x]), c.map (fun r => r.map Token.num)⟩ := by
    simp only [List.foldl_append, read_header _ head hhead, knotLines, List.foldl_cons, List.foldl_nil, read_blank]
    rw [read_hot _ "knotvectors" _ (by decide)]
    rw [show readLine (⟨some "knotvectors", [], [], []⟩ : Sections K) [.int kvs.length] = ⟨some "knotvectors", [[.int kvs.length]], [], []⟩ from rfl]
    rw [show (List.zipWith (fun (p : ℕ × ℕ) kv => Token.int p.1 :: Token.int p.2 :: kv.map Token.num) (degrees.zip res) kvs) = knotRows degrees res kvs from rfl]
    rw [foldl_add (knotRows degrees res kvs), add_knots]
    · rw [read_hot _ "weights" _ (by decide)]
      simp only
      rw [foldl_add (w.map _), add_weights]
      · rw [read_other _ "FiniteElementSpace" _ (by decide) (by decide), read_other _ "FiniteElementCollection" _ (by decide) (by decide), read_other _ "VDim" _ (by decide) (by decide),
          read_hot _ "Ordering" _ (by decide)]
        simp only
        rw [foldl_add (c.map _), add_ordering]
        · simp
        · intro l hl
          obtain ⟨r, hr, rfl⟩ := List.mem_map.1 hl
          rcases r with - | ⟨x, t⟩
          · exact absurd rfl (hc _ (hcm _ hr))
          · exact Or.inr ⟨x, _, rfl⟩
      · intro l hl
        obtain ⟨x, hx, rfl⟩ := List.mem_map.1 hl
        exact Or.inr ⟨x, _, rfl⟩
    · intro l hl
      unfold knotRows at hl
      rw [List.mem_iff_getElem] at hl
      obtain ⟨i, hi, rfl⟩ := hl
      rw [List.getElem_zipWith]
      exact Or.inl ⟨_, _, rfl⟩
  unfold load
  rw [hsec]
  simp only [List.drop_one, List.tail_cons]
  rw [parse_rows degrees res kvs hkl.symm (by rw [hres, hkl])]
  obtain ⟨e1, e2, e3⟩ := rows_degrees degrees res kvs hkl.symm (by rw [hres, hkl])
  have ew : (w.map (fun x => ([Token.num x] : Line K))).mapM parseWeight = some w := by
    rw [List.mapM_map]
    have := Grid.mapM_eq_some_map' (fun x : K => parseWeight ([Token.num x] : Line K)) id w (fun a _ => rfl)
    rw [List.map_id] at this
    exact this
  have ec : (c.map (fun r => r.map (Token.num (K := K)))).mapM (fun l => l.mapM Token.value) = some c := by
    rw [List.mapM_map]
    have := Grid.mapM_eq_some_map' (fun r : List K => (r.map (Token.num (K := K))).mapM Token.value) id c (fun a _ => parse_values a)
    rw [List.map_id] at this
    exact this
  rw [ew, ec]
  simp only [Option.bind_eq_bind, Option.bind_some, e1, e2, e3]
  rw [if_neg (by rw [hcl, hwl', hwl, ← hn, hkl]; simp)]
  have er : controlMeshResolutions (⟨degrees, some kvs, some w, c⟩ : Spline K (List K)) = res := rfl
  rw [er, hm]
  simp only [Option.bind_some, hc2, hw2]

/-! ### Solutions -/

theorem nextLine_rows (k : ℕ) : ∀ (blanks : List (Line K)) (l : Line K) (ls : List (Line K)), (∀ b ∈ blanks, meaningless b = true) → blanks.length < k → meaningless l = false →
    nextLine k (blanks ++ l :: ls) = some (l, ls) := by
  induction k with
  | zero => intro blanks l ls _ h; omega
  | succ k ih =>
    intro blanks l ls hb hl hm
    rcases blanks with - | ⟨b, blanks⟩
    · simp [nextLine, hm]
    · rw [List.cons_append, nextLine, if_pos (hb b (by simp))]
      exact ih blanks l ls (fun b h => hb b (by simp [h])) (by simpa using hl) hm

theorem nextLine_blank (k : ℕ) : ∀ blanks : List (Line K), (∀ b ∈ blanks, meaningless b = true) → nextLine k blanks = none := by
  induction k with
  | zero => intro blanks _; cases blanks <;> rfl
  | succ k ih =>
    intro blanks hb
    rcases blanks with - | ⟨b, blanks⟩
    · rfl
    · rw [nextLine, if_pos (hb b (by simp))]
      exact ih blanks fun b h => hb b (by simp [h])

theorem nextLine_pre (k : ℕ) : ∀ (pre : List (Line K)) (l : Line K) (ls : List (Line K)), pre.length < k → meaningless l = false →
    nextLine k (pre ++ l :: ls) = some (l, ls) ∨
      ∃ m pre', m ∈ pre ∧ nextLine k (pre ++ l :: ls) = some (m, pre' ++ l :: ls) ∧ pre'.length < pre.length ∧ ∀ x ∈ pre', x ∈ pre := by
  induction k with
  | zero => intro pre l ls h; omega
  | succ k ih =>
    intro pre l ls hl hm
    rcases pre with - | ⟨b, pre⟩
    · left; simp [nextLine, hm]
    · rw [List.cons_append, nextLine]
      by_cases hb : meaningless b = true
      · rw [if_pos hb]
        rcases ih pre l ls (by simpa using hl) hm with h | ⟨m, pre', h1, h2, h3, h4⟩
        · exact Or.inl h
        · exact Or.inr ⟨m, pre', by simp [h1], h2, by rw [List.length_cons]; omega, fun x hx => by simp [h4 x hx]⟩
      · rw [if_neg hb]
        exact Or.inr ⟨b, pre, by simp, rfl, by simp, fun x hx => by simp [hx]⟩

theorem collect_rows : ∀ (n : ℕ) (rows tail : List (Line K)), rows.length < n → (∀ r ∈ rows, meaningless r = false) → (∀ b ∈ tail, meaningless b = true) →
    solutionLines n true (rows ++ tail) = rows := by
  intro n
  induction n with
  | zero => intro rows tail h; omega
  | succ n ih =>
    intro rows tail hn hr ht
    rcases rows with - | ⟨r, rows⟩
    · rw [List.nil_append, solutionLines, nextLine_blank _ _ ht]
    · rw [List.cons_append, solutionLines, show nextLine 513 (r :: (rows ++ tail)) = some (r, rows ++ tail) by simp [nextLine, hr r (by simp)]]
      simp only [if_true]
      rw [ih rows tail (by simpa using hn) (fun r h => hr r (by simp [h])) ht]

/-- the line contains "Ordering" -/
def hasOrdering (l : Line K) : Bool := l.any fun t => t.isWord "Ordering"

theorem skip_pre : ∀ (n : ℕ) (pre : List (Line K)) (ord : Line K) (blanks rows tail : List (Line K)), pre.length + 1 + rows.length < n → pre.length < 513 →
    (∀ l ∈ pre, hasOrdering l = false) → hasOrdering ord = true → meaningless ord = false → blanks.length < 513 → (∀ b ∈ blanks, meaningless b = true) →
    (∀ r ∈ rows, meaningless r = false) → (∀ b ∈ tail, meaningless b = true) → solutionLines n false (pre ++ ord :: (blanks ++ (rows ++ tail))) = rows := by
  intro n
  induction n with
  | zero => intro pre ord blanks rows tail h; omega
  | succ n ih =>
    intro pre ord blanks rows tail hn hp hpre ho hom hb hbl hr ht
    rw [solutionLines]
    rcases nextLine_pre 513 pre ord (blanks ++ (rows ++ tail)) hp hom with h | ⟨m, pre', h1, h2, h3, h4⟩
    · rw [h]
      simp only [Bool.false_eq_true, if_false]
      rw [show (ord.any fun t => t.isWord "Ordering") = true from ho]
      rcases n with - | n
      · omega
      rcases rows with - | ⟨r, rows⟩
      · rw [solutionLines, nextLine_blank]
        intro b hb
        rcases List.mem_append.1 hb with hb | hb
        · exact hbl b hb
        · exact ht b (by simpa using hb)
      · rw [solutionLines, List.cons_append, nextLine_rows 513 blanks r (rows ++ tail) hbl hb (hr r (by simp))]
        simp only [if_true]
        rw [collect_rows n rows tail (by simp at hn; omega) (fun r h => hr r (by simp [h])) ht]
    · rw [h2]
      simp only [Bool.false_eq_true, if_false]
      rw [show (m.any fun t => t.isWord "Ordering") = false from hpre m h1]
      exact ih pre' ord blanks rows tail (by omega) (by omega) (fun l hl => hpre l (h4 l hl)) ho hom hb hbl hr ht

/-- A solution file: lines before the first one which contains "Ordering", this line, blank lines, one line per control point in the order of MFEM, and blank lines. -/
def Spec.IsSolution (f : List (Line K)) (rows : List (List K)) : Prop :=
  ∃ pre ord blanks tail, f = pre ++ ord :: (blanks ++ (rows.map (fun r => r.map Token.num) ++ tail)) ∧ pre.length < 513 ∧ (∀ l ∈ pre, hasOrdering l = false) ∧
    hasOrdering ord = true ∧ meaningless ord = false ∧ blanks.length < 513 ∧ (∀ b ∈ blanks, meaningless b = true) ∧ (∀ b ∈ tail, meaningless b = true)

theorem solution_rows {f : List (Line K)} {rows : List (List K)} (h : IsSolution f rows) (hr : ∀ r ∈ rows, r ≠ []) :
    (solutionLines (f.length + 1) false f).mapM (fun l => l.mapM Token.value) = some rows := by
  obtain ⟨pre, ord, blanks, tail, rfl, hp, hpre, ho, hom, hb, hbl, ht⟩ := h
  rw [skip_pre _ pre ord blanks _ tail (by simp; omega) hp hpre ho hom hb hbl _ ht]
  · rw [List.mapM_map]
    have := Grid.mapM_eq_some_map' (fun r : List K => (r.map (Token.num (K := K))).mapM Token.value) id rows (fun a _ => parse_values a)
    rw [List.map_id] at this
    exact this
  · intro l hl
    obtain ⟨r, h, rfl⟩ := List.mem_map.1 hl
    rcases r with - | ⟨x, t⟩
    · exact absurd rfl (hr _ h)
    · rfl

/-- C80: `read_solution` gives a spline with degrees and knot vectors of the reference, and control points so that the rows of the file are its control points in the order of
MFEM. Weights are those of the reference if these are all equal; otherwise they are permuted, see `read_solution_violates`. -/
theorem read_solution_partial (ref : Spline K (List K)) (kvs : List (List K)) (ws : List K) (h : Patch ref kvs ws) (f : List (Line K)) (sol : List (List K))
    (hs : sol.length = ref.controlPoints.length) (hsol : ∀ r ∈ sol, r ≠ []) (hf : ∃ rows fwd back, dofMapping (controlMeshResolutions ref) = some (fwd, back) ∧ take sol fwd = some rows ∧
      IsSolution f rows) :
    ∃ w, readSolution f ref = some { ref with controlPoints := sol, weights := some w } ∧ w.Perm ws ∧ ((∃ x, ∀ y ∈ ws, y = x) → w = ws) := by
  obtain ⟨degrees, knots, weights, cps⟩ := ref
  obtain ⟨hd, hk, hw, hkl, h2, hn, hwl, hc⟩ := h
  simp only at hd hk hw hkl hn hwl hc hs
  subst hk hw
  have hres : (controlMeshResolutions (⟨degrees, some kvs, some ws, cps⟩ : Spline K (List K))).length = degrees.length := by simp [controlMeshResolutions, hkl]
  obtain ⟨rows, fwd, back, hm, hrows, hfile⟩ := hf
  obtain ⟨fwd', back', hm', good⟩ := dof_mapping_order (controlMeshResolutions (⟨degrees, some kvs, some ws, cps⟩ : Spline K (List K))) (by rw [hres]; exact hd) h2
  obtain ⟨rfl, rfl⟩ : fwd = fwd' ∧ back = back' := by
    rw [hm] at hm'
    injection hm' with e
    injection e with e1 e2
    exact ⟨e1, e2⟩
  have inv := good.1
  rw [← hn, ← hs] at inv
  obtain ⟨m, hm1, hml, hm2, hmm⟩ := take_take sol inv
  rw [hm1] at hrows
  injection hrows with e
  subst e
  have hlen : ws.length = sol.length := by rw [hwl, hs]
  have bb : ∀ i ∈ back, i < ws.length := fun i hi => by
    rw [hlen]
    exact List.mem_range.1 (inv.2.1.mem_iff.1 hi)
  have hback : back.Perm (List.range ws.length) := by rw [hlen]; exact inv.2.1
  refine ⟨back.map fun i => ws.getD i 0, ?_, ?_, ?_⟩
  · unfold readSolution
    rw [solution_rows hfile fun r hr => hsol r (hmm r hr)]
    simp only [Option.bind_eq_bind, Option.bind_some]
    rw [if_neg (by rw [hml, hs]; simp), hm]
    simp only [Option.bind_some, hm2, take_eq ws 0 bb]
  · refine (hback.map _).trans ?_
    have : (List.range ws.length).map (fun i => ws.getD i 0) = ws := by
      apply List.ext_getElem
      · simp
      · intro i hi hi'
        rw [List.getElem_map, List.getElem_range, List.getD_eq_getElem ws _ hi']
    rw [this]
  · rintro ⟨x, hx⟩
    apply List.ext_getElem
    · simp [hback.length_eq]
    · intro i hi hi'
      rw [List.getElem_map]
      rw [hx _ (List.getElem_mem hi')]
      have : back[i]'(by simpa using hi) < ws.length := bb _ (List.getElem_mem _)
      rw [List.getD_eq_getElem ws _ this]
      exact hx _ (List.getElem_mem _)

end

/-! ### Examples -/

/-- a biquadratic-linear patch with weights -/
def Spec.sample : Spline ℚ (List ℚ) :=
  ⟨[2, 1], some [[0, 0, 0, 1, 1, 1], [0, 0, 1, 1]], some [1, 2, 3, 4, 5, 6], [[0, 0], [1, 0], [2, 0], [0, 1], [1, 1], [2, 1]]⟩

theorem sample_patch : Patch sample [[0, 0, 0, 1, 1, 1], [0, 0, 1, 1]] [1, 2, 3, 4, 5, 6] where
  paraDim := Or.inl rfl
  knots := rfl
  weights := rfl
  knotVectors_length := rfl
  two := by decide
  count := rfl
  weights_length := rfl
  components := by decide

example : ∃ f, exportFile sample = some f ∧ load f = some sample := load_export _ _ _ sample_patch

/-- the file of a solution, as MFEM writes it -/
def Spec.solution (rows : List (List ℚ)) : List (Line ℚ) :=
  [[.word "FiniteElementSpace"], [.word "FiniteElementCollection", .word "NURBS2"], [.word "VDim", .int 2], [.word "Ordering", .int 1], []] ++ rows.map fun r => r.map .num

theorem solution_isSolution (rows : List (List ℚ)) : IsSolution (solution rows) rows :=
  ⟨[[.word "FiniteElementSpace"], [.word "FiniteElementCollection", .word "NURBS2"], [.word "VDim", .int 2]], [.word "Ordering", .int 1], [[]], [], by simp [solution], by decide,
    by decide, by decide, rfl, by decide, by decide, by decide⟩

/-- C80: `read_solution` gives a reference spline with different weights other weights than it had: the reference is in the order of splinepy already, but its weights are taken to be
in the order of MFEM. Here the solution is the reference spline itself. -/
theorem read_solution_violates : ∃ rows fwd back, dofMapping (controlMeshResolutions sample) = some (fwd, back) ∧ take sample.controlPoints fwd = some rows ∧
    IsSolution (solution rows) rows ∧ readSolution (solution rows) sample = some { sample with weights := some [1, 5, 2, 4, 6, 3] } :=
  ⟨_, _, _, rfl, rfl, solution_isSolution _, by decide +kernel⟩

end Splinepy.Mfem
