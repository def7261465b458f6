import Verif.Model.ShowStyle
import Verif.Props.Unique
import Mathlib.Tactic.SplitIfs
import Mathlib.Data.List.GetD

/-!
C152: the look of what `show` draws.
-/
namespace Splinepy.ShowStyle
open Splinepy.ShowOptions Splinepy.Display

namespace Spec

/-- The option that is documented for an attribute of a drawn object (descriptions of the options). The transparency of the control mesh has none. -/
def option : Element → Attr → Option String
  | .spline, .c => some "c"
  | .spline, .alpha => some "alpha"
  | .spline, .lighting => some "lighting"
  | .spline, .lw => some "lw"
  | .knots, .c => some "knot_c"
  | .knots, .lw => some "knot_lw"
  | .knots, .alpha => some "knot_alpha"
  | .controlPoints, .c => some "control_point_c"
  | .controlPoints, .r => some "control_point_r"
  | .controlPoints, .alpha => some "control_point_alpha"
  | .controlMesh, .c => some "control_mesh_c"
  | .controlMesh, .lw => some "control_mesh_lw"
  | _, _ => none

/-- Line widths are for lines: of the spline for curves, of the knots otherwise; knots of curves are crosses, which only have a colour. -/
def Applies (paraDim : ℕ) : Element → Attr → Prop
  | .spline, .lw => paraDim = 1
  | .knots, .lw => 1 < paraDim
  | .knots, .alpha => 1 < paraDim
  | _, _ => True

/-- What is a value for an attribute: a colour is a name, a tuple or an integer, the others are numbers, the kind of lighting is a name. -/
def Allowed : Attr → Value → Prop
  | .c, .str _ => True
  | .c, .tuple _ => True
  | .c, .int _ => True
  | .lighting, .str _ => True
  | .r, .int _ => True
  | .r, .float _ => True
  | .lw, .int _ => True
  | .lw, .float _ => True
  | .alpha, .int _ => True
  | .alpha, .float _ => True
  | _, _ => False

/-- the look if nothing is said -/
def default (paraDim dim : ℕ) : Element → Attr → Value
  | .spline, .c => .str (if paraDim = 1 then "black" else "green")
  | .spline, .lighting => .str (if dim = 3 then "glossy" else "off")
  | .spline, .lw => .int 8
  | .spline, _ => .int 1
  | .knots, .c => .str (if paraDim = 1 then "green" else "black")
  | .knots, .lw => .int 3
  | .knots, _ => .int 1
  | .controlPoints, .r => .int 10
  | .controlPoints, .alpha => .float 1
  | .controlMesh, .lw => .int 4
  | _, _ => .str "red"

/-- The options a spline can have: none at first, then whatever was assigned without exception. -/
inductive Reachable : Options Value → Prop
  | start : Reachable (fun _ => none)
  | assign {o o' : Options Value} (key : String) (v : Value) : Reachable o → ShowStyle.assign o key v = some o' → Reachable o'

/-- the knots of a curve in its domain, which goes from the knot number `degree` to the one `degree` before the last; a Bezier curve has its ends -/
def IsKnot {K P : Type} [Field K] [LinearOrder K] (s : Curve K P) (k : K) : Prop :=
  match s.knots with
  | none => k = 0 ∨ k = 1
  | some (knots, degree) => k ∈ knots ∧ knots.getD degree 0 ≤ k ∧ k ≤ knots.getD (knots.length - 1 - degree) 0

/-- knots in order, distinct ones not closer than the tolerance, and a domain -/
def ValidCurve {K P : Type} [Field K] [LinearOrder K] (eps : K) (s : Curve K P) : Prop :=
  ∀ knots degree, s.knots = some (knots, degree) → knots.Pairwise (· ≤ ·) ∧ Unique.Spec.Separated eps knots ∧ 2 * (degree + 1) ≤ knots.length

end Spec

theorem assign_other {o : Options Value} {key k : String} {v : Value} (h : k ≠ key) : ((assign o key v).getD o) k = o k := by
  unfold assign
  split <;> simp [h]

theorem assign_same {o : Options Value} {key : String} {v : Value} (h : v.ty ∈ types key) : ((assign o key v).getD o) key = some v := by
  simp [assign, h]

theorem callOptions_none (kw : List (String × Value)) (k : String) : ∀ o : Options Value, kw.lookup k = none → callOptions o kw k = o k := by
  induction kw with
  | nil => intro o _; rfl
  | cons x l ih =>
    intro o h
    rw [List.lookup_cons] at h
    have e : (k == x.1) = false := by
      cases hx : (k == x.1)
      · rfl
      · rw [hx] at h; cases h
    rw [e] at h
    unfold callOptions
    rw [List.foldl_cons]
    refine (ih _ h).trans (assign_other ?_)
    simpa using e

theorem callOptions_some (kw : List (String × Value)) (k : String) (v : Value) (hv : v.ty ∈ types k) :
    ∀ o : Options Value, (kw.map (·.1)).Nodup → kw.lookup k = some v → callOptions o kw k = some v := by
  induction kw with
  | nil => intro o _ h; simp at h
  | cons x l ih =>
    intro o hn h
    obtain ⟨a, w⟩ := x
    rw [List.map_cons, List.nodup_cons] at hn
    rw [List.lookup_cons] at h
    unfold callOptions
    rw [List.foldl_cons]
    by_cases e : k = a
    · subst e
      simp only [beq_self_eq_true, Option.some.injEq] at h
      subst h
      have hl : l.lookup k = none := by
        rw [List.lookup_eq_none_iff]
        intro p hp
        simp only [bne_iff_ne, ne_eq]
        rintro rfl
        exact hn.1 (List.mem_map.mpr ⟨p, hp, rfl⟩)
      exact (callOptions_none l k _ hl).trans (assign_same hv)
    · have e' : (k == a) = false := by simpa using e
      rw [e'] at h
      exact ih _ hn.2 h

/-- A keyword argument that is not accepted changes nothing. -/
theorem callOptions_bad (kw : List (String × Value)) (k : String) (h : ∀ v, kw.lookup k = some v → v.ty ∈ types k) (hn : (kw.map (·.1)).Nodup) (o : Options Value) :
    callOptions o kw k = (kw.lookup k).or (o k) := by
  cases hk : kw.lookup k with
  | none => simpa using callOptions_none kw k o hk
  | some v => simpa using callOptions_some kw k v (h v hk) o hn hk

/-- C152 (missing: integers as width of knot lines, `knot_width_violates`; the transparency of the control mesh, `mesh_alpha_violates`): every attribute of every drawn object that has an
option follows it: the keyword argument of the call if there is one, else the option of the spline, else the default; it depends on no other option or argument. -/
theorem style_follows_partial (paraDim dim : ℕ) (hp : 1 ≤ paraDim) (hd : dim ≤ 3) (o : Options Value) (kwargs : List (String × Value)) (hn : (kwargs.map (·.1)).Nodup)
    (e : Element) (a : Attr) (key : String) (hk : Spec.option e a = some key) (ha : Spec.Applies paraDim e a)
    (hv : ∀ v, kwargs.lookup key = some v → Spec.Allowed a v ∧ (key = "knot_lw" → ∀ n, v ≠ .int n)) :
    style paraDim dim (callOptions o kwargs) e a = some (((kwargs.lookup key).or (o key)).getD (Spec.default paraDim dim e a)) := by
  have hco : callOptions o kwargs key = (kwargs.lookup key).or (o key) := by
    refine callOptions_bad kwargs key ?_ hn o
    intro v h
    obtain ⟨h1, h2⟩ := hv v h
    cases e <;> cases a <;> simp only [Spec.option, Option.some.injEq, reduceCtorEq] at hk <;> subst hk <;> cases v <;>
      simp [Spec.Allowed, types, colour, Value.ty] at h1 h2 ⊢
  have hlt : (1 < paraDim) ↔ ¬ paraDim = 1 := by omega
  have hlt' : (2 < dim) ↔ dim = 3 := by omega
  cases e <;> cases a <;> simp only [Spec.option, Option.some.injEq, reduceCtorEq] at hk <;> subst hk <;>
    simp only [Spec.Applies] at ha <;> simp [style, splineStyle, knotStyle, pointStyle, meshStyle, hco, Spec.default, ha, hlt, hlt']
  all_goals (try (split_ifs <;> rfl))
  all_goals omega

example : style 2 3 (callOptions (fun k => if k = "knot_c" then some (.str "blue") else none) [("control_point_r", .int 3), ("nonsense", .int 1)]) .knots .c = some (.str "blue") ∧
    style 2 3 (callOptions (fun k => if k = "knot_c" then some (.str "blue") else none) [("control_point_r", .int 3), ("nonsense", .int 1)]) .controlPoints .r = some (.int 3) :=
  ⟨by decide +kernel, by decide +kernel⟩

/-- C152: attributes without a line or without an option of their own are not set: knots of curves have no width and no transparency. -/
theorem style_curve_knots (dim : ℕ) (o : Options Value) : style 1 dim o .knots .lw = none ∧ style 1 dim o .knots .alpha = none ∧ ∀ n, 1 < n → style n dim o .spline .lw = none := by
  refine ⟨rfl, rfl, fun n h => ?_⟩
  have : n ≠ 1 := by omega
  simp [style, splineStyle, this]

/-- C152 fails: an integer as width of the knot lines raises when it is assigned, and as argument of `show` it is ignored without notice, for every spline and every integer, although integers
are accepted for all other widths and sizes. -/
theorem knot_width_violates (paraDim dim : ℕ) (o : Options Value) (n : ℤ) :
    assign o "knot_lw" (.int n) = none ∧ style paraDim dim (callOptions o [("knot_lw", .int n)]) = style paraDim dim o ∧ (assign o "control_mesh_lw" (.int n)).isSome ∧
      (assign o "lw" (.int n)).isSome ∧ (assign o "knot_alpha" (.int n)).isSome := by
  have h : assign o "knot_lw" (.int n) = none := by simp [assign, types, Value.ty]
  refine ⟨h, ?_, ?_, ?_, ?_⟩
  · have : callOptions o [("knot_lw", .int n)] = o := by simp [callOptions, h]
    rw [this]
  all_goals simp [assign, types, Value.ty]

theorem types_assign_none {o o' : Options Value} {key k : String} {v : Value} (h : assign o key v = some o') (hk : types k = []) : o' k = o k := by
  unfold assign at h
  split at h
  · next hm =>
    cases h
    have : k ≠ key := by rintro rfl; rw [hk] at hm; cases hm
    simp [this]
  · cases h

theorem unreadable (k : String) (hk : types k = []) {o : Options Value} (h : Spec.Reachable o) : o k = none := by
  induction h with
  | start => rfl
  | assign key v _ ha ih => rw [types_assign_none ha hk, ih]

theorem reachable_call {o : Options Value} (h : Spec.Reachable o) (kwargs : List (String × Value)) : Spec.Reachable (callOptions o kwargs) := by
  induction kwargs generalizing o with
  | nil => exact h
  | cons x l ih =>
    unfold callOptions
    rw [List.foldl_cons]
    apply ih
    cases hx : assign o x.1 x.2 with
    | none => exact h
    | some o' => exact .assign x.1 x.2 h hx

/-- C152 fails: nothing changes the transparency of the control mesh. Whatever options a spline has and whatever arguments a call has, it is 0.8 in a window (the name that is read is not the name
of an option) and 1 in an svg file (neither is that one), while the transparency of the control points follows its option in both. -/
theorem mesh_alpha_violates {o : Options Value} (h : Spec.Reachable o) (kwargs : List (String × Value)) (paraDim dim : ℕ) :
    style paraDim dim (callOptions o kwargs) .controlMesh .alpha = some (.float (4 / 5)) ∧ svgMeshAlpha (callOptions o kwargs) = .float 1 ∧
      ∀ x, style paraDim dim (callOptions o [("control_point_alpha", .float x)]) .controlPoints .alpha = some (.float x) ∧
        svgPointAlpha (callOptions o [("control_point_alpha", .float x)]) = .float x := by
  have hr := reachable_call h kwargs
  refine ⟨?_, ?_, fun x => ?_⟩
  · simp [style, meshStyle, unreadable "control_points_alpha" (by decide) hr]
  · simp [svgMeshAlpha, unreadable "control_mesh_alpha" (by decide) hr]
  · constructor <;> simp [style, pointStyle, svgPointAlpha, callOptions, assign, types, Value.ty]

example : Spec.Reachable (fun k => if k = "control_mesh_lw" then some (.int 2) else none) :=
  .assign "control_mesh_lw" (.int 2) .start (by simp [assign, types, Value.ty])

section
variable {K P : Type} [Field K] [LinearOrder K] [IsStrictOrderedRing K]

theorem mem_region (l : List K) (d : ℕ) (hs : l.Pairwise (· ≤ ·)) (hlen : 2 * (d + 1) ≤ l.length) (k : K) :
    k ∈ (l.drop d).take (l.length - 2 * d) ↔ k ∈ l ∧ l.getD d 0 ≤ k ∧ k ≤ l.getD (l.length - 1 - d) 0 := by
  have mono : ∀ i j (hi : i < l.length) (hj : j < l.length), i ≤ j → l[i] ≤ l[j] := by
    intro i j hi hj hij
    rcases Nat.lt_or_eq_of_le hij with h | h
    · exact List.pairwise_iff_getElem.mp hs i j hi hj h
    · subst h; exact le_refl _
  have hd : d < l.length := by omega
  have he : l.length - 1 - d < l.length := by omega
  rw [List.getD_eq_getElem _ _ hd, List.getD_eq_getElem _ _ he]
  constructor
  · intro h
    obtain ⟨i, hi, rfl⟩ := List.mem_iff_getElem.mp h
    simp only [List.length_take, List.length_drop] at hi
    simp only [List.getElem_take, List.getElem_drop]
    exact ⟨List.getElem_mem _, mono _ _ _ _ (by omega), mono _ _ _ _ (by omega)⟩
  · rintro ⟨h, h1, h2⟩
    obtain ⟨i, hi, rfl⟩ := List.mem_iff_getElem.mp h
    have inside : ∀ j, d ≤ j → ∀ hj : j < l.length, j ≤ l.length - 1 - d → l[j] ∈ (l.drop d).take (l.length - 2 * d) := by
      intro j h1 hj h2
      refine List.mem_iff_getElem.mpr ⟨j - d, ?_, ?_⟩
      · simp only [List.length_take, List.length_drop]; omega
      · simp only [List.getElem_take, List.getElem_drop]
        congr 1
        omega
    by_cases ha : i < d
    · have : l[i] = l[d] := le_antisymm (mono _ _ _ _ (by omega)) h1
      rw [this]
      exact inside d (le_refl _) hd (by omega)
    · by_cases hb : l.length - 1 - d < i
      · have : l[i] = l[l.length - 1 - d] := le_antisymm h2 (mono _ _ _ _ (by omega))
        rw [this]
        exact inside _ (by omega) he (le_refl _)
      · exact inside i (by omega) hi (by omega)

/-- C152: the crosses of a curve are at the images of exactly its knots in the domain, each once and in increasing order, patch after patch for a multipatch. -/
theorem shown_knots (eps : K) (heps : 0 < eps) (patches : List (Curve K P)) (hv : ∀ s ∈ patches, Spec.ValidCurve eps s) :
    ∃ places : List (List K), List.Forall₂ (fun (s : Curve K P) l => l.Pairwise (· < ·) ∧ ∀ k, k ∈ l ↔ Spec.IsKnot s k) patches places ∧
      shownKnots eps patches = (List.zipWith (fun s l => l.map s.eval) patches places).flatten := by
  refine ⟨patches.map (Curve.uniqueKnots eps), ?_, ?_⟩
  · induction patches with
    | nil => exact .nil
    | cons s t ih =>
      refine .cons ?_ (ih fun x hx => hv x (List.mem_cons_of_mem _ hx))
      have h := hv s List.mem_cons_self
      unfold Curve.uniqueKnots Spec.IsKnot
      cases hk : s.knots with
      | none => simp
      | some kd =>
        obtain ⟨knots, degree⟩ := kd
        obtain ⟨hs, hsep, hlen⟩ := h knots degree hk
        obtain ⟨h1, h2⟩ := Unique.unique_knots_exact knots degree eps heps hs hsep
        exact ⟨h1, fun k => (h2 k).trans (mem_region knots degree hs hlen k)⟩
  · unfold shownKnots
    congr 1
    rw [List.zipWith_map_right, List.zipWith_self]

end

example : Spec.ValidCurve (1 / 1000 : ℚ) (⟨some ([0, 0, 0, 1, 2, 2, 2], 2), fun x => (x, x * x)⟩ : Curve ℚ (ℚ × ℚ)) := by
  intro knots degree h
  cases h
  exact ⟨by decide +kernel, by unfold Unique.Spec.Separated; decide +kernel, by decide⟩
example : shownKnots (1 / 1000 : ℚ) [(⟨some ([0, 0, 0, 1, 2, 2, 2], 2), fun x => (x, x * x)⟩ : Curve ℚ (ℚ × ℚ)), ⟨none, fun x => (x, 1)⟩] =
    [(0, 0), (1, 1), (2, 4), (0, 1), (1, 1)] := by decide +kernel

end Splinepy.ShowStyle
