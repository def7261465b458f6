import Verif.Model.GismoGeometry
import Verif.Props.Cats
import Verif.Props.MfemCartesian

/-!
C85, C86, C87: geometry, options and binary arrays of gismo files.
-/
namespace Splinepy.Gismo
open SplineCore Files

set_option linter.unusedSectionVars false

variable {K : Type} [Field K] [LinearOrder K] [IsStrictOrderedRing K]

/-! ### Specification -/

/-- `number` reads the eight bytes that `bytes` writes. -/
structure Spec.Float64 (bytes : K → List ℕ) (number : List ℕ → K) : Prop where
  size : ∀ x, (bytes x).length = 8
  exact : ∀ x, number (bytes x) = x

/-- `l` are the numbers of an array in a buffer, `size` bytes each with the values given by `value`. -/
def Spec.Holds (size : ℕ) (value : List ℕ → K) (buffer : List ℕ) (l : List K) : Prop :=
  l.length * size = buffer.length ∧ ∀ i (h : i < l.length), l[i] = value ((buffer.drop (i * size)).take size)

/-- value of little endian bytes as unsigned integer -/
def Spec.unsigned (b : List ℕ) : ℕ := b.foldr (fun x acc => x + 256 * acc) 0

/-- value of little endian bytes as signed integer -/
def Spec.signed (b : List ℕ) : ℚ := let u := Spec.unsigned b; if u < 2 ^ (8 * b.length - 1) then u else (u : ℚ) - 2 ^ (8 * b.length)

/-- IEEE 754 value of eight little endian bytes (finite numbers) -/
def Spec.float64 (b : List ℕ) : ℚ :=
  let u := Spec.unsigned b
  let mantissa : ℕ := u % 2 ^ 52
  let exponent : ℕ := u / 2 ^ 52 % 2 ^ 11
  (if u / 2 ^ 63 = 1 then -1 else 1) * (if exponent = 0 then (mantissa : ℚ) * 2 ^ (-1074 : ℤ) else ((2 ^ 52 + mantissa : ℕ) : ℚ) * 2 ^ ((exponent : ℤ) - 1075))

/-! ### binary arrays -/

theorem fromBuffer_holds (number : List ℕ → K) : ∀ (fuel : ℕ) (b : List ℕ), b.length ≤ fuel → b.length % 8 = 0 → ∃ l, fromBuffer number fuel b = some l ∧ Spec.Holds 8 number b l
  | 0, b, h, _ => by
    obtain rfl := List.eq_nil_of_length_eq_zero (by omega : b.length = 0)
    exact ⟨[], rfl, by simp [Spec.Holds]⟩
  | fuel + 1, b, h, h8 => by
    by_cases hb : b = []
    · subst hb
      exact ⟨[], by simp [fromBuffer], by simp [Spec.Holds]⟩
    · have hpos : 0 < b.length := List.length_pos_of_ne_nil hb
      obtain ⟨l, hl, h1, h2⟩ := fromBuffer_holds number fuel (b.drop 8) (by rw [List.length_drop]; omega) (by rw [List.length_drop]; omega)
      refine ⟨number (b.take 8) :: l, ?_, ?_, ?_⟩
      · rw [fromBuffer, if_neg hb, if_neg (by omega), hl]
        rfl
      · rw [List.length_drop] at h1
        simp only [List.length_cons]
        omega
      · intro i hi
        cases i with
        | zero => simp
        | succ i =>
          simp only [List.getElem_cons_succ]
          rw [h2 i (by simpa using hi), List.drop_drop]
          congr 3
          ring

/-- C87: arrays in the format B64Float64 are read exactly. -/
theorem binary_reads_partial (number : List ℕ → K) (buffer : List ℕ) (h : buffer.length % 8 = 0) :
    ∃ l, fromText number (.binary .float64 buffer) = some l ∧ Spec.Holds 8 number buffer l := fromBuffer_holds number _ buffer le_rfl h

/-- the IEEE bytes of 1 and of -2.5 -/
example : fromText Spec.float64 (.binary .float64 [0, 0, 0, 0, 0, 0, 240, 63, 0, 0, 0, 0, 0, 0, 4, 192]) = some [1, -5 / 2] := by decide +kernel

theorem fromBuffer_none (number : List ℕ → K) : ∀ (fuel : ℕ) (b : List ℕ), b.length ≤ fuel → b.length % 8 ≠ 0 → fromBuffer number fuel b = none
  | 0, b, h, h8 => by omega
  | fuel + 1, b, h, h8 => by
    have hb : b ≠ [] := by rintro rfl; simp at h8
    rw [fromBuffer, if_neg hb]
    by_cases hl : b.length < 8
    · rw [if_pos hl]
    · rw [if_neg hl, fromBuffer_none number fuel (b.drop 8) (by rw [List.length_drop]; omega) (by rw [List.length_drop]; omega)]
      rfl

/-- C87: the declared format is not used: arrays of integers come back as the floats with these bytes. The array `[1]` in format B64Int64 is read as 2^-1074, and an array of two
and four byte numbers raises unless its size is a multiple of eight bytes. -/
theorem binary_reads_violates :
    Spec.Holds 8 Spec.signed [1, 0, 0, 0, 0, 0, 0, 0] [1] ∧ fromText Spec.float64 (.binary .int64 [1, 0, 0, 0, 0, 0, 0, 0]) = some [2 ^ (-1074 : ℤ)]
    ∧ ∀ (number : List ℕ → K) (f : Format) (buffer : List ℕ), buffer.length % 8 ≠ 0 → fromText number (.binary f buffer) = none := by
  refine ⟨⟨rfl, fun i h => ?_⟩, by decide +kernel, fun number f buffer h => fromBuffer_none number _ buffer le_rfl h⟩
  obtain rfl : i = 0 := by simpa using h
  exact (by decide +kernel : (1 : ℚ) = Spec.signed [1, 0, 0, 0, 0, 0, 0, 0])

/-! ### geometry -/

theorem fromText_toText (bytes : K → List ℕ) (number : List ℕ → K) (hb : Spec.Float64 bytes number) (b : Bool) (l : List K) : fromText number (toText bytes b l) = some l := by
  cases b with
  | false => rfl
  | true =>
    have hlen : ∀ l : List K, (l.flatMap bytes).length = 8 * l.length := by
      intro l
      induction l with
      | nil => rfl
      | cons x l ih => rw [List.flatMap_cons, List.length_append, ih, hb.size, List.length_cons]; ring
    have : ∀ (l : List K) (fuel : ℕ), l.length ≤ fuel → fromBuffer number fuel (l.flatMap bytes) = some l := by
      intro l
      induction l with
      | nil => intro fuel _; cases fuel <;> simp [fromBuffer]
      | cons x l ih =>
        intro fuel hf
        cases fuel with
        | zero => simp at hf
        | succ fuel =>
          have h8 := hlen (x :: l)
          rw [List.length_cons] at h8
          rw [fromBuffer, if_neg (by intro e; rw [e] at h8; simp at h8), if_neg (by omega), List.flatMap_cons, List.drop_left' (hb.size x), List.take_left' (hb.size x), hb.exact,
            ih fuel (by simpa using hf)]
          rfl
    exact this l _ (by rw [hlen]; omega)

theorem fillDirections_range (number : List ℕ → K) (d : ℕ → Int) (t : ℕ → Text K) (kv : ℕ → List K) (h : ∀ i, fromText number (t i) = some (kv i)) :
    ∀ (k s : ℕ) (l : List (Option (Int × List K))), s + k ≤ l.length →
      ∃ l', fillDirections number ((List.range' s k).map fun i => ⟨i, d i, t i⟩) l = some l' ∧ l'.length = l.length ∧
        ∀ j, l'[j]? = if s ≤ j ∧ j < s + k then some (some (d j, kv j)) else l[j]? := by
  intro k
  induction k with
  | zero => intro s l _; exact ⟨l, rfl, rfl, fun j => by rw [if_neg (by omega)]⟩
  | succ k ih =>
    intro s l hl
    obtain ⟨l', h1, h2, h3⟩ := ih (s + 1) (l.set s (some (d s, kv s))) (by rw [List.length_set]; omega)
    refine ⟨l', ?_, by rw [h2, List.length_set], fun j => ?_⟩
    · rw [List.range'_succ, List.map_cons, fillDirections, h, Option.bind_some, if_pos (by simp only; omega)]
      exact h1
    · rw [h3]
      by_cases hj : j = s
      · subst hj
        rw [if_neg (by omega), if_pos (by omega), List.getElem?_set_self (by omega)]
      · rw [List.getElem?_set_ne (fun e => hj e.symm)]
        by_cases hc : s + 1 ≤ j ∧ j < s + 1 + k
        · rw [if_pos hc, if_pos (by omega)]
        · rw [if_neg hc, if_neg (by omega)]

/-- Specification of what a gismo file can hold: B-splines and NURBS as they are, Bezier splines as B-splines, rational Bezier splines as NURBS. -/
def Spec.AsGismo (o q : Obj K) : Prop :=
  match o.cls with
  | .bspline => q = o
  | .nurbs => q = o
  | .bezier => Cats.Spec.Converted false o q
  | .rationalBezier => Cats.Spec.Converted true o q
  | .spline => False

theorem asGismo_spec (maxDim : ℕ) (o : Obj K) (h : Files.Spec.Constructed maxDim o) (hcls : o.cls ≠ .spline) :
    ∃ q, asGismo o = some q ∧ Spec.AsGismo o q ∧ Files.Spec.Constructed maxDim q ∧ q.core.kvs.isSome ∧ q.core.ws = o.core.ws ∧ q.core.cps = o.core.cps ∧
      q.cls = if o.core.ws.isNone then .bspline else .nurbs := by
  obtain ⟨hg, -⟩ := constructed_facts maxDim o h
  obtain ⟨-, -, g3, g4, g5, g6⟩ := hg
  unfold asGismo Spec.AsGismo
  simp only at g3 g4 g5 g6
  cases hc : o.cls with
  | spline => exact absurd hc hcls
  | bspline =>
    rw [hc] at g3 g6
    exact ⟨o, rfl, rfl, h, g3 rfl, rfl, rfl, by rw [g6 rfl, hc]; rfl⟩
  | nurbs =>
    rw [hc] at g3 g4
    obtain ⟨w, hw⟩ := Option.isSome_iff_exists.1 (g4 rfl)
    exact ⟨o, rfl, rfl, h, g3 rfl, rfl, rfl, by rw [hw, hc]; rfl⟩
  | bezier =>
    rw [hc] at g6
    have hw := g6 rfl
    obtain ⟨q, h1, h2, h3, h4, h5⟩ := Cats.convert_spec maxDim o h hcls false (by rw [hw]; simp)
    refine ⟨q, h1, h2, h3, h5, ?_, h2.points, ?_⟩
    · rw [h2.ones hw, hw]; rfl
    · rw [h2.cls, hw]; rfl
  | rationalBezier =>
    rw [hc] at g4
    obtain ⟨w, hw⟩ := Option.isSome_iff_exists.1 (g4 rfl)
    obtain ⟨q, h1, h2, h3, h4, h5⟩ := Cats.convert_spec maxDim o h hcls true (fun _ => rfl)
    refine ⟨q, h1, h2, h3, h5, ?_, h2.points, ?_⟩
    · rw [(h2.weights w hw).2, hw]
    · rw [h2.cls, hw]; rfl

theorem load_one (maxDim : ℕ) (bytes : K → List ℕ) (number : List ℕ → K) (hb : Spec.Float64 bytes number) (b : Bool) (o : Obj K) (h : Files.Spec.Constructed maxDim o)
    (hcls : o.cls ≠ .spline) : ∃ q, Spec.AsGismo o q ∧ (geometryOf bytes b o).bind (loadGeometry maxDim number) = some q := by
  obtain ⟨q, h1, h2, h3, h4, h5, h6, h7⟩ := asGismo_spec maxDim o h hcls
  refine ⟨q, h2, ?_⟩
  obtain ⟨hg, hdim1, hrows, hdeg, hkl, hkind⟩ := constructed_facts maxDim q h3
  obtain ⟨kvs, hk⟩ := Option.isSome_iff_exists.1 h4
  have hklen : kvs.length = q.core.degrees.length := hkl kvs hk
  unfold geometryOf
  rw [h1]
  simp only [Option.map_some, Option.bind_some]
  unfold loadGeometry
  simp only
  obtain ⟨l', f1, f2, f3⟩ := fillDirections_range number (fun i => q.core.degrees.getD i 0) (fun i => toText bytes b ((q.core.kvs.getD []).getD i [])) (fun i => (q.core.kvs.getD []).getD i [])
    (fun i => fromText_toText bytes number hb b _) q.core.degrees.length 0 (List.replicate q.core.degrees.length none) (by simp)
  rw [List.range_eq_range', f1, Option.bind_some]
  have hl' : l' = (List.range q.core.degrees.length).map fun i => some (q.core.degrees.getD i 0, (q.core.kvs.getD []).getD i []) := by
    apply List.ext_getElem?
    intro j
    rw [f3, List.getElem?_map]
    by_cases hj : j < q.core.degrees.length
    · rw [if_pos (by omega), List.getElem?_range hj]; rfl
    · rw [if_neg (by omega), List.getElem?_eq_none (by simpa using hj), List.getElem?_eq_none (by simpa using hj)]; rfl
  rw [hl', List.mapM_map, Grid.mapM_eq_some_map' _ (fun i => (q.core.degrees.getD i 0, (q.core.kvs.getD []).getD i [])) _ (fun i _ => rfl : ∀ i ∈ List.range q.core.degrees.length,
    (id ∘ fun i => some (q.core.degrees.getD i 0, (q.core.kvs.getD []).getD i [])) i = _), Option.bind_some]
  have hw : readWeights number (o.core.ws.map (toText bytes b)) = some o.core.ws := by
    cases o.core.ws with
    | none => rfl
    | some w => simp [readWeights, fromText_toText bytes number hb]
  rw [hw, Option.bind_some, fromText_toText bytes number hb, Option.bind_some, ← h6, reshape_flatten (by omega) _ _ h3.2 le_rfl, Option.bind_some]
  have e1 : ((List.range q.core.degrees.length).map fun i => (q.core.degrees.getD i 0, (q.core.kvs.getD []).getD i [])).map (·.1) = q.core.degrees := by
    rw [List.map_map]
    conv_rhs => rw [← List.map_id q.core.degrees, Mfem.map_range_getD q.core.degrees 0 id]
    rfl
  have e2 : ((List.range q.core.degrees.length).map fun i => (q.core.degrees.getD i 0, (q.core.kvs.getD []).getD i [])).map (·.2) = kvs := by
    rw [List.map_map, ← hklen, hk, Option.getD_some]
    conv_rhs => rw [← List.map_id kvs, Mfem.map_range_getD kvs [] id]
    rfl
  rw [e1, e2, ← h7, ← h5, ← hk]
  obtain ⟨s, hs, hc⟩ := reconstruct maxDim q h3 q.cls hg
  rw [hs, Option.bind_some, hc]
  rfl

/-- C85: patches of a multipatch written to a gismo file, as text or in base64, come back: B-splines and NURBS as they are, Bezier splines with the knot vectors of a Bezier spline. -/
theorem gismo_round_trip (maxDim : ℕ) (bytes : K → List ℕ) (number : List ℕ → K) (hb : Spec.Float64 bytes number) (asBase64 : Bool) (objs : List (Obj K))
    (h : ∀ o ∈ objs, Files.Spec.Constructed maxDim o ∧ o.cls ≠ .spline) :
    ∃ back, (exportGeometry bytes asBase64 objs).bind (fun f => f.mapM (loadGeometry maxDim number)) = some back ∧ List.Forall₂ Spec.AsGismo objs back := by
  have hone : ∀ o ∈ objs, ∃ q g, Spec.AsGismo o q ∧ geometryOf bytes asBase64 o = some g ∧ loadGeometry maxDim number g = some q := by
    intro o ho
    obtain ⟨q, h1, h2⟩ := load_one maxDim bytes number hb asBase64 o (h o ho).1 (h o ho).2
    obtain ⟨g, hg, hq⟩ := Option.bind_eq_some_iff.1 h2
    exact ⟨q, g, h1, hg, hq⟩
  unfold exportGeometry
  clear h
  suffices ∃ back f, objs.mapM (geometryOf bytes asBase64) = some f ∧ f.mapM (loadGeometry maxDim number) = some back ∧ List.Forall₂ Spec.AsGismo objs back by
    obtain ⟨back, f, h1, h2, h3⟩ := this
    exact ⟨back, by rw [h1, Option.bind_some, h2], h3⟩
  induction objs with
  | nil => exact ⟨[], [], rfl, rfl, .nil⟩
  | cons o objs ih =>
    obtain ⟨q, g, h1, h2, h3⟩ := hone o (by simp)
    obtain ⟨back, f, h4, h5, h6⟩ := ih fun o ho => hone o (by simp [ho])
    exact ⟨q :: back, g :: f, by rw [List.mapM_cons, h2, h4]; rfl, by rw [List.mapM_cons, h3, h5]; rfl, .cons h1 h6⟩

/-- Non-vacuity: a NURBS curve, as text and in base64 (numbers are encoded by their first byte here). -/
example (b : Bool) : ∃ back, (exportGeometry (fun x : ℚ => if x = 0 then [0, 0, 0, 0, 0, 0, 0, 0] else if x = 1 then [0, 0, 0, 0, 0, 0, 240, 63] else [0, 0, 0, 0, 0, 0, 0, 64]) b
    [exampleNurbs]).bind (fun f => f.mapM (loadGeometry 3 Spec.float64)) = some back ∧ back = [exampleNurbs] := by
  refine ⟨_, ?_, rfl⟩
  cases b <;> decide +kernel

/-! ### options -/

/-- Texts that differ in white space only are the same; everything else is equal. -/
inductive Spec.Same : Opt → Opt → Prop
  | mk (tag attrs) (text text' : Option (List Char)) (children children' : List Opt) (h : text = text' ∨ blank text ∧ blank text') (hc : List.Forall₂ Spec.Same children children') :
    Spec.Same (.mk tag attrs text children) (.mk tag attrs text' children')

mutual
/-- every dictionary of the tree has a tag -/
def Spec.Tagged : Opt → Prop
  | .mk tag _ _ children => tag.isSome ∧ Spec.AllTagged children
def Spec.AllTagged : List Opt → Prop
  | [] => True
  | o :: os => Spec.Tagged o ∧ Spec.AllTagged os
end

/-- the tag does not start with one of the two words `load` looks for -/
def Spec.OtherTag (t : String) : Prop := ¬ "MultiPatch".toList <+: t.toList ∧ ¬ "Geometry".toList <+: t.toList

def Spec.OptionTag : Opt → Prop
  | .mk tag _ _ _ => ∀ t, tag = some t → Spec.OtherTag t

theorem blank_indentation (n : ℕ) : blank (some (indentation n)) = true := by
  simp only [blank, indentation, List.all_cons, List.all_replicate]
  simp

mutual
theorem apply_same (indent : Bool) (level : ℕ) : ∀ o : Opt, Spec.Tagged o → ∃ e, applyOption o = some e ∧
    Spec.Same o (makeDictionary (parsed (if indent then indentElem level e else e)))
  | .mk none _ _ _, h => by simp [Spec.Tagged] at h
  | .mk (some tag) attrs text children, h => by
    obtain ⟨es, h1, h2⟩ := applies_same indent (level + 1) children h.2
    refine ⟨.mk tag attrs text es, by rw [applyOption, h1]; rfl, ?_⟩
    cases indent with
    | false =>
      simp only [Bool.false_eq_true, if_false] at h2 ⊢
      rw [parsed, makeDictionary]
      refine .mk _ _ _ _ _ _ ?_ h2
      by_cases ht : text = some []
      · right; rw [if_pos ht, ht]; exact ⟨rfl, rfl⟩
      · left; rw [if_neg ht]
    | true =>
      simp only [if_true] at h2 ⊢
      rw [indentElem, parsed, makeDictionary]
      refine .mk _ _ _ _ _ _ ?_ h2
      by_cases he : es.isEmpty
      · rw [if_pos he]
        by_cases ht : text = some []
        · right; rw [if_pos ht, ht]; exact ⟨rfl, rfl⟩
        · left; rw [if_neg ht]
      · rw [if_neg he]
        by_cases hb : blank text
        · rw [if_pos hb, if_neg (by simp [indentation])]
          exact Or.inr ⟨hb, blank_indentation _⟩
        · left
          rw [if_neg hb, if_neg (by rintro rfl; exact hb rfl)]
theorem applies_same (indent : Bool) (level : ℕ) : ∀ os : List Opt, Spec.AllTagged os → ∃ es, applyOptions os = some es ∧
    List.Forall₂ Spec.Same os (makeDictionaries (parsedAll (if indent then indentElems level es else es)))
  | [], _ => ⟨[], rfl, by cases indent <;> exact .nil⟩
  | o :: os, h => by
    obtain ⟨e, h1, h2⟩ := apply_same indent level o h.1
    obtain ⟨es, h3, h4⟩ := applies_same indent level os h.2
    refine ⟨e :: es, by rw [applyOptions, h1, Option.bind_some, h3]; rfl, ?_⟩
    cases indent with
    | false => exact .cons h2 h4
    | true => exact .cons h2 h4
end

theorem indentElems_append (level : ℕ) : ∀ a b : List Elem, indentElems level (a ++ b) = indentElems level a ++ indentElems level b
  | [], _ => rfl
  | e :: es, b => by rw [List.cons_append, indentElems, indentElems_append level es b]; rfl

theorem parsedAll_append : ∀ a b : List Elem, parsedAll (a ++ b) = parsedAll a ++ parsedAll b
  | [], _ => rfl
  | e :: es, b => by rw [List.cons_append, parsedAll, parsedAll_append es b]; rfl

theorem makeDictionaries_append : ∀ a b : List Elem, makeDictionaries (a ++ b) = makeDictionaries a ++ makeDictionaries b
  | [], _ => rfl
  | e :: es, b => by rw [List.cons_append, makeDictionaries, makeDictionaries_append es b]; rfl

/-- what is read from an element at the level of the options -/
def readBack (indent : Bool) (es : List Elem) : List Elem := parsedAll (if indent then indentElems 1 es else es)

theorem readBack_append (indent : Bool) (a b : List Elem) : readBack indent (a ++ b) = readBack indent a ++ readBack indent b := by
  cases indent
  · exact parsedAll_append a b
  · simp only [readBack, if_true, indentElems_append, parsedAll_append]

theorem readBack_cons (indent : Bool) (e : Elem) (es : List Elem) : ∃ e', readBack indent (e :: es) = e' :: readBack indent es ∧ e'.tag = e.tag := by
  obtain ⟨tag, attrs, text, children⟩ := e
  cases indent
  · exact ⟨_, rfl, by rw [parsed]; rfl⟩
  · exact ⟨_, rfl, by rw [indentElem, parsed]; rfl⟩

theorem readBack_tags (indent : Bool) (es : List Elem) : (readBack indent es).map Elem.tag = es.map Elem.tag := by
  induction es with
  | nil => cases indent <;> rfl
  | cons e es ih =>
    obtain ⟨e', h1, h2⟩ := readBack_cons indent e es
    rw [h1, List.map_cons, List.map_cons, ih, h2]

theorem loadOptions_append (a b : List Elem) : loadOptions (a ++ b) = loadOptions a ++ loadOptions b := by
  simp only [loadOptions, List.filter_append, makeDictionaries_append]

theorem loadOptions_none (a : List Elem) (h : ∀ t ∈ a.map Elem.tag, ¬ Spec.OtherTag t) : loadOptions a = [] := by
  unfold loadOptions
  rw [List.filter_eq_nil_iff.2]
  · rfl
  · intro e he
    have := h e.tag (List.mem_map_of_mem he)
    unfold Spec.OtherTag at this
    rw [not_and_or, not_not, not_not] at this
    rcases this with h | h
    · rw [List.isPrefixOf_iff_prefix.2 h]; simp
    · rw [List.isPrefixOf_iff_prefix.2 h]; simp

theorem loadOptions_all (a : List Elem) (h : ∀ t ∈ a.map Elem.tag, Spec.OtherTag t) : loadOptions a = makeDictionaries a := by
  unfold loadOptions
  rw [List.filter_eq_self.2]
  intro e he
  obtain ⟨h1, h2⟩ := h e.tag (List.mem_map_of_mem he)
  rw [← List.isPrefixOf_iff_prefix] at h1 h2
  simp only [Bool.not_eq_true] at h1 h2
  rw [h1, h2]
  rfl

theorem applyOptions_tags : ∀ (os : List Opt) (es : List Elem), applyOptions os = some es → (∀ o ∈ os, Spec.OptionTag o) → ∀ t ∈ es.map Elem.tag, Spec.OtherTag t
  | [], es, h, _, t, ht => by
    obtain rfl := Option.some.inj h
    simp at ht
  | .mk none _ _ _ :: os, es, h, _, t, ht => by simp [applyOptions, applyOption] at h
  | .mk (some tag) attrs text children :: os, es, h, ho, t, ht => by
    rw [applyOptions, applyOption] at h
    obtain ⟨e, he, h⟩ := Option.bind_eq_some_iff.1 h
    obtain ⟨cs, -, rfl⟩ := Option.map_eq_some_iff.1 he
    obtain ⟨es', hes, rfl⟩ := Option.map_eq_some_iff.1 h
    rw [List.map_cons, List.mem_cons] at ht
    rcases ht with rfl | ht
    · exact (ho (.mk (some _) attrs text children) (by simp) : ∀ t', _ → _) _ rfl
    · exact applyOptions_tags os es' hes (fun o h => ho o (by simp [h])) t ht

/-- C86: the options given to `export` come back from `load` in their order, with tags, attributes, children and all texts other than white space, if their tags do not start with
`MultiPatch` or `Geometry`; with and without indentation. Before them stand the boundary conditions, if they were written. -/
theorem options_round_trip_partial (indent : Bool) (topology : Elem) (conditions : Option Elem) (geometries : List Elem) (options : List Opt)
    (htop : topology.tag = "MultiPatch") (hcond : ∀ c, conditions = some c → c.tag = "boundaryConditions") (hgeo : ∀ g ∈ geometries, g.tag = "Geometry")
    (htag : Spec.AllTagged options) (hopt : ∀ o ∈ options, Spec.OptionTag o) :
    ∃ file before back, exportXml indent topology conditions geometries options = some file ∧ loadOptions file = before ++ back ∧ before.length = conditions.toList.length ∧
      List.Forall₂ Spec.Same options back := by
  obtain ⟨es, h1, h2⟩ := applies_same indent 1 options htag
  have hconds : ∀ t ∈ conditions.toList.map Elem.tag, Spec.OtherTag t := by
    intro t ht
    obtain ⟨c, hc, rfl⟩ := List.mem_map.1 ht
    rw [Option.mem_toList] at hc
    rw [hcond c hc]
    unfold Spec.OtherTag
    decide
  refine ⟨readBack indent ([topology] ++ conditions.toList ++ geometries ++ es), makeDictionaries (readBack indent conditions.toList), makeDictionaries (readBack indent es), ?_, ?_, ?_, h2⟩
  · unfold exportXml
    rw [h1]
    rfl
  · rw [readBack_append, readBack_append, readBack_append, loadOptions_append, loadOptions_append, loadOptions_append,
      loadOptions_none (readBack indent [topology]) (by rw [readBack_tags]; simp only [List.map_cons, List.map_nil, List.mem_singleton, forall_eq, htop]; unfold Spec.OtherTag; decide),
      loadOptions_none (readBack indent geometries) (by
        rw [readBack_tags]
        intro t ht
        obtain ⟨g, hg, rfl⟩ := List.mem_map.1 ht
        rw [hgeo g hg]
        unfold Spec.OtherTag
        decide),
      loadOptions_all _ (by rw [readBack_tags]; exact hconds), loadOptions_all _ (by rw [readBack_tags]; exact applyOptions_tags options es h1 hopt)]
    simp
  · cases conditions with
    | none => cases indent <;> rfl
    | some c => cases indent <;> rfl

mutual
theorem again (level : ℕ) : ∀ e : Elem, ∃ e', applyOption (makeDictionary (parsed (indentElem level e))) = some e' ∧ parsed (indentElem level e') = parsed (indentElem level e)
  | .mk tag attrs text children => by
    obtain ⟨es', h1, h2⟩ := agains (level + 1) children
    rw [indentElem, parsed, makeDictionary, applyOption, h1]
    refine ⟨_, rfl, ?_⟩
    have hlen : es'.isEmpty = children.isEmpty := by
      have : ∀ es : List Elem, (parsedAll (indentElems (level + 1) es)).isEmpty = es.isEmpty := by intro es; cases es <;> rfl
      rw [← this es', h2, this]
    rw [indentElem, parsed, h2, hlen]
    congr 1
    by_cases he : children.isEmpty
    · simp only [if_pos he]
      by_cases ht : text = some []
      · simp [ht]
      · simp [ht]
    · simp only [if_neg he]
      by_cases hb : blank text
      · simp only [if_pos hb]
        have hi : (if some (indentation (level + 1)) = some [] then none else some (indentation (level + 1))) = some (indentation (level + 1)) := if_neg (by simp [indentation])
        rw [hi, if_pos (blank_indentation _), hi]
      · have ht : text ≠ some [] := by rintro rfl; exact hb rfl
        simp only [if_neg hb, if_neg ht]
theorem agains (level : ℕ) : ∀ es : List Elem, ∃ es', applyOptions (makeDictionaries (parsedAll (indentElems level es))) = some es' ∧
    parsedAll (indentElems level es') = parsedAll (indentElems level es)
  | [] => ⟨[], rfl, rfl⟩
  | e :: es => by
    obtain ⟨e', h1, h2⟩ := again level e
    obtain ⟨es', h3, h4⟩ := agains level es
    refine ⟨e' :: es', by rw [indentElems, parsedAll, makeDictionaries, applyOptions, h1, Option.bind_some, h3]; rfl, ?_⟩
    rw [indentElems, parsedAll, h2, h4]
    rfl
end

/-- C86: options that were loaded from a file are written and loaded again without any change (`indent=True`). -/
theorem options_stable (options : List Elem) :
    ∃ es, applyOptions (makeDictionaries (readBack true options)) = some es ∧ makeDictionaries (readBack true es) = makeDictionaries (readBack true options) := by
  obtain ⟨es, h1, h2⟩ := agains 1 options
  exact ⟨es, h1, congrArg _ h2⟩

/-- Non-vacuity: an assembler option with a child; its text becomes the indentation. -/
example : (exportXml true (.mk "MultiPatch" [] none []) none [] [.mk (some "Assembler") [("id", "3")] none [.mk (some "order") [] (some "2".toList) []]]).map loadOptions =
    some [.mk (some "Assembler") [("id", "3")] (some "\n    ".toList) [.mk (some "order") [] (some "2".toList) []]] := rfl

/-- C86: an option whose tag starts with `Geometry` is lost. -/
theorem options_tag_violates (indent : Bool) :
    (exportXml indent (.mk "MultiPatch" [] none []) none [] [.mk (some "GeometrySettings") [] (some "1".toList) []]).map loadOptions = some [] := by cases indent <;> rfl

/-- C86: with `labeled_boundaries=False` and several boundary ids, the boundary conditions are read as an option; loading a file and writing what was loaded adds another element every
time. -/
theorem options_grow_violates (indent : Bool) :
    ∃ (conditions : Elem) (file file' : List Elem), exportXml indent (.mk "MultiPatch" [] none []) (some conditions) [] [] = some file ∧
      exportXml indent (.mk "MultiPatch" [] none []) (some conditions) [] (loadOptions file) = some file' ∧ (loadOptions file).length = 1 ∧ (loadOptions file').length = 2 := by
  cases indent <;>
    exact ⟨.mk "boundaryConditions" [("id", "1"), ("multipatch", "1")] none [.mk "bc" [] (some "0 1".toList) [], .mk "bc" [] (some "0 2".toList) []], _, _, rfl, rfl, rfl, rfl⟩

end Splinepy.Gismo
