import Verif.Props.BezierSpline
import Verif.Props.Micro

/-!
Adding new knots to clamped knot vectors.
-/
set_option linter.unusedSectionVars false
namespace Splinepy.AddKnots
open Splinepy.Spec Splinepy.KnotInsertion Finset Splinepy.BezierSpline
open Splinepy.Index (Spline)

variable {K : Type} [Field K] [LinearOrder K] [IsStrictOrderedRing K]

/-- `d'` is `d` with the new knots, each of them once -/
structure Adds (tol : K) (d : Dim K) (new : List K) (d' : Dim K) : Prop where
  degree : d'.degree = d.degree
  first : d'.first = d.first
  last : d'.last = d.last
  valid : d'.Valid tol
  nodup : new.Nodup
  inside : ∀ x ∈ new, d.first < x ∧ x < d.last ∧ x ∉ d.knots
  separated : Unique.Spec.Separated tol (d.knots ++ new)
  counts : ∀ v, d'.knots.count v = d.knots.count v + new.count v

theorem unique_eq (d : Dim K) : d.uniqueKnots = d.first :: (d.inner.map (·.1)) ++ [d.last] := by
  simp [Dim.uniqueKnots, Dim.groups]

theorem mem_knots {tol : K} {d : Dim K} (hv : d.Valid tol) (x : K) : x ∈ d.knots ↔ x ∈ d.uniqueKnots := by
  constructor
  · exact fun h => mem_expand h
  · intro h
    obtain ⟨g, hg, rfl⟩ := List.mem_map.1 h
    unfold Dim.knots expand
    exact List.mem_flatMap.2 ⟨g, hg, List.mem_replicate.2 ⟨by have := groups_pos hv g hg; omega, rfl⟩⟩

theorem unique_strict {tol : K} (ht : 0 < tol) {d : Dim K} (hv : d.Valid tol) : d.uniqueKnots.Pairwise (· < ·) := hv.gap.imp fun {a b} h => by linarith

theorem first_lt_last {tol : K} (ht : 0 < tol) {d : Dim K} (hv : d.Valid tol) : d.first < d.last := by
  have h := unique_strict ht hv
  rw [unique_eq, List.cons_append, List.pairwise_cons] at h
  exact h.1 _ (by simp)

theorem unique_bounds {tol : K} (ht : 0 < tol) {d : Dim K} (hv : d.Valid tol) {x : K} (hx : x ∈ d.uniqueKnots) : d.first ≤ x ∧ x ≤ d.last := by
  have h := unique_strict ht hv
  rw [unique_eq] at h hx
  have h2 := h
  rw [List.cons_append, List.pairwise_cons] at h
  rw [List.pairwise_append] at h2
  constructor
  · rcases List.mem_append.1 hx with hx | hx
    · rcases List.mem_cons.1 hx with rfl | hx
      · exact le_rfl
      · exact (h.1 x (by simp [hx])).le
    · rw [List.mem_singleton] at hx
      subst hx
      exact (h.1 _ (by simp)).le
  · rcases List.mem_append.1 hx with hx | hx
    · exact (h2.2.2 x hx _ (by simp)).le
    · rw [List.mem_singleton] at hx
      rw [hx]

/-- sorted list with known ends -/
theorem ends_eq {l : List K} (h : l.Pairwise (· < ·)) {a b : K} (hab : a < b) (ha : a ∈ l) (hb : b ∈ l) (hr : ∀ x ∈ l, a ≤ x ∧ x ≤ b) :
    l = a :: l.tail.dropLast ++ [b] := by
  cases l with
  | nil => cases ha
  | cons c l =>
    rw [List.pairwise_cons] at h
    have hc : c = a := by
      rcases List.mem_cons.1 ha with h1 | h1
      · exact h1.symm
      · exact absurd (h.1 a h1) (not_lt.2 (hr c (by simp)).1)
    subst hc
    have hb' : b ∈ l := by
      rcases List.mem_cons.1 hb with h1 | h1
      · exact absurd hab (by rw [h1]; exact lt_irrefl _)
      · exact h1
    obtain ⟨l', z, rfl⟩ : ∃ l' z, l = l' ++ [z] := ⟨l.dropLast, l.getLast (List.ne_nil_of_mem hb'), (List.dropLast_append_getLast _).symm⟩
    have hz : z = b := by
      rcases List.mem_append.1 hb' with h1 | h1
      · have := (List.pairwise_append.1 h.2).2.2 b h1 z (by simp)
        exact absurd this (not_lt.2 (hr z (by simp)).2)
      · rw [List.mem_singleton] at h1; exact h1.symm
    subst hz
    simp

/-- the direction with the given distinct knots, new ones once -/
def withBreaks (d : Dim K) (bps : List K) : Dim K := { d with inner := bps.tail.dropLast.map fun x => (x, max 1 (d.knots.count x)) }

theorem withBreaks_unique {tol : K} (ht : 0 < tol) {d : Dim K} (hv : d.Valid tol) (bps new : List K) (hs : bps.Pairwise (· < ·))
    (hm : ∀ x, x ∈ bps ↔ x ∈ new ∨ x ∈ d.uniqueKnots) (hin : ∀ x ∈ new, d.first < x ∧ x < d.last) : (withBreaks d bps).uniqueKnots = bps := by
  have h := ends_eq hs (first_lt_last ht hv) ((hm _).2 (Or.inr (by rw [unique_eq]; simp))) ((hm _).2 (Or.inr (by rw [unique_eq]; simp))) (by
    intro x hx
    rcases (hm x).1 hx with h | h
    · exact ⟨(hin x h).1.le, (hin x h).2.le⟩
    · exact unique_bounds ht hv h)
  conv_rhs => rw [h]
  rw [unique_eq]
  simp only [withBreaks, List.map_map]
  congr 2
  exact (List.map_congr_left fun x _ => rfl).trans (List.map_id _)

theorem adds_withBreaks {tol : K} (ht : 0 < tol) {d : Dim K} (hv : d.Valid tol) (bps new : List K) (hs : bps.Pairwise (· < ·))
    (hm : ∀ x, x ∈ bps ↔ x ∈ new ∨ x ∈ d.uniqueKnots) (hn : new.Nodup) (hin : ∀ x ∈ new, d.first < x ∧ x < d.last ∧ x ∉ d.knots)
    (hsep : Unique.Spec.Separated tol (d.knots ++ new)) : Adds tol d new (withBreaks d bps) := by
  have hu := withBreaks_unique ht hv bps new hs hm fun x hx => ⟨(hin x hx).1, (hin x hx).2.1⟩
  have hmem : ∀ x ∈ bps, x ∈ d.knots ++ new := by
    intro x hx
    rcases (hm x).1 hx with h | h
    · exact List.mem_append_right _ h
    · exact List.mem_append_left _ ((mem_knots hv x).2 h)
  have hval : (withBreaks d bps).Valid tol := by
    refine ⟨hv.degree, ?_, ?_⟩
    · intro g hg
      obtain ⟨x, _, rfl⟩ := List.mem_map.1 hg
      exact le_max_left _ _
    · change (withBreaks d bps).uniqueKnots.Pairwise _
      rw [hu]
      refine List.Pairwise.imp_of_mem ?_ hs
      intro a b ha hb hab
      have := hsep a (hmem a ha) b (hmem b hb) hab.ne
      rw [abs_of_neg (sub_neg.2 hab)] at this
      linarith
  refine ⟨rfl, rfl, rfl, hval, hn, hin, hsep, fun v => ?_⟩
  obtain ⟨a1, a2⟩ := count_expand d.groups (groups_nodup ht hv) v
  obtain ⟨b1, b2⟩ := count_expand (withBreaks d bps).groups (groups_nodup ht hval) v
  change (expand (withBreaks d bps).groups).count v = (expand d.groups).count v + new.count v
  by_cases h : v ∈ bps
  · have hends : v = d.first ∨ v = d.last ∨ v ∈ bps.tail.dropLast := by
      rw [← hu, unique_eq] at h
      simp only [withBreaks, List.map_map, List.cons_append, List.mem_cons, List.mem_append, List.mem_nil_iff, or_false, List.mem_map, Function.comp_apply] at h
      rcases h with h | ⟨x, h, rfl⟩ | h
      · exact Or.inl h
      · exact Or.inr (Or.inr h)
      · exact Or.inr (Or.inl h)
    have hnew : v = d.first ∨ v = d.last → new.count v = 0 := by
      intro he
      rw [List.count_eq_zero]
      intro hv'
      have := hin v hv'
      rcases he with rfl | rfl
      · exact lt_irrefl _ this.1
      · exact lt_irrefl _ this.2.1
    rcases hends with he | he | he
    · rw [hnew (Or.inl he), b2 (d.degree + 1) (by rw [he]; simp [Dim.groups, withBreaks]), a2 (d.degree + 1) (by rw [he]; simp [Dim.groups])]
    · rw [hnew (Or.inr he), b2 (d.degree + 1) (by rw [he]; simp [Dim.groups, withBreaks]), a2 (d.degree + 1) (by rw [he]; simp [Dim.groups])]
    · rw [b2 (max 1 (d.knots.count v)) (by
        simp only [Dim.groups, withBreaks, List.cons_append, List.mem_cons, List.mem_append, List.mem_map]
        exact Or.inr (Or.inl ⟨v, he, rfl⟩))]
      change max 1 (d.knots.count v) = d.knots.count v + new.count v
      by_cases hvn : v ∈ new
      · rw [List.count_eq_zero_of_not_mem (hin v hvn).2.2, List.count_eq_one_of_mem hn hvn]
        simp
      · rw [List.count_eq_zero_of_not_mem hvn]
        have : v ∈ d.knots := by
          rcases (hm v).1 h with h | h
          · exact absurd h hvn
          · exact (mem_knots hv v).2 h
        have := List.one_le_count_iff.2 this
        omega
  · rw [b1 (by change v ∉ (withBreaks d bps).uniqueKnots; rw [hu]; exact h), a1 (fun h' => h ((hm v).2 (Or.inr h'))),
      List.count_eq_zero_of_not_mem (fun h' => h ((hm v).2 (Or.inl h')))]

/-- `unique_knots` of a clamped direction -/
theorem unique_knots_dim {tol : K} (ht : 0 < tol) {d : Dim K} (hv : d.Valid tol) : Unique.uniqueKnots tol d.knots d.degree = d.uniqueKnots := by
  have hs : d.knots.Pairwise (· ≤ ·) := expand_sorted (hv.gap.imp fun {a b} h => by linarith)
  have hsep : Unique.Spec.Separated tol d.knots := by
    intro a ha b hb hab
    rw [mem_knots hv] at ha hb
    obtain ⟨i, hi, rfl⟩ := List.getElem_of_mem ha
    obtain ⟨j, hj, rfl⟩ := List.getElem_of_mem hb
    have hp := List.pairwise_iff_getElem.1 hv.gap
    rcases Nat.lt_trichotomy i j with h | h | h
    · have := hp i j hi hj h
      rw [abs_sub_comm, le_abs]; left
      change (d.groups.map (·.1))[i] + tol ≤ _ at this
      unfold Dim.uniqueKnots
      linarith
    · subst h; exact absurd rfl hab
    · have := hp j i hj hi h
      rw [le_abs]; left
      unfold Dim.uniqueKnots
      linarith
  obtain ⟨h1, h2⟩ := Unique.unique_knots_exact d.knots d.degree tol ht hs hsep
  refine Micro.eq_of_strict h1 (unique_strict ht hv) fun x => ?_
  rw [h2, ← mem_knots hv]
  -- the region
  have hk : d.knots = List.replicate d.degree d.first ++ ([d.first] ++ expand d.inner ++ [d.last]) ++ List.replicate d.degree d.last := by
    unfold Dim.knots Dim.groups
    rw [List.cons_append, expand_cons, expand_append, expand_cons]
    simp only [expand, List.flatMap_nil, List.append_nil]
    rw [show List.replicate (d.degree + 1) d.first = List.replicate d.degree d.first ++ [d.first] by rw [List.replicate_succ']]
    rw [show List.replicate (d.degree + 1) d.last = [d.last] ++ List.replicate d.degree d.last by rw [List.replicate_succ]; rfl]
    simp
  have hreg : (d.knots.drop d.degree).take (d.knots.length - 2 * d.degree) = [d.first] ++ expand d.inner ++ [d.last] := by
    rw [hk, List.append_assoc, List.drop_append_of_le_length (by simp)]
    rw [show List.drop d.degree (List.replicate d.degree d.first) = [] by simp, List.nil_append]
    rw [List.take_append_of_le_length (by simp; omega), List.take_of_length_le (by simp; omega)]
  rw [hreg, hk]
  simp only [List.mem_append, List.mem_replicate, List.mem_singleton]
  tauto

theorem knots_getD (d : Dim K) : d.knots.getD d.degree 0 = d.first ∧ d.knots.getD (d.knots.length - d.degree - 1) 0 = d.last := by
  have hl := d.knots_length
  have h1 := d.start_knot d.degree le_rfl
  have h2 := d.end_knot
  unfold knotSeq at h1 h2
  rw [List.getD_eq_getElem _ _ (by omega)] at h1 h2
  exact ⟨by rw [List.getD_eq_getElem _ _ (by omega)]; exact h1, by rw [List.getD_eq_getElem _ _ (by omega)]; exact h2⟩

theorem knots_sorted {tol : K} (ht : 0 < tol) {d : Dim K} (hv : d.Valid tol) : d.knots.Pairwise (· ≤ ·) := expand_sorted (hv.gap.imp fun {a b} h => by linarith)

theorem micro_valid {tol : K} (ht : 0 < tol) {d : Dim K} (hv : d.Valid tol) : Micro.Spec.Valid (⟨d.degree, d.knots⟩ : Micro.Direction K) := by
  refine ⟨knots_sorted ht hv, ?_, ?_⟩
  · have := d.knots_length
    change 2 * (d.degree + 1) ≤ d.knots.length
    omega
  · change d.knots.getD d.degree 0 < d.knots.getD (d.knots.length - d.degree - 1) 0
    rw [(knots_getD d).1, (knots_getD d).2]
    exact first_lt_last ht hv

theorem valid_mono {tol tol' : K} (h : tol' ≤ tol) {d : Dim K} (hv : d.Valid tol) : d.Valid tol' := ⟨hv.degree, hv.mult, hv.gap.imp fun {a b} h' => by linarith⟩

theorem separated_knots {tol : K} (ht : 0 < tol) {d : Dim K} (hv : d.Valid tol) : Unique.Spec.Separated tol d.knots := by
  intro a ha b hb hab
  rw [mem_knots hv] at ha hb
  obtain ⟨i, hi, rfl⟩ := List.getElem_of_mem ha
  obtain ⟨j, hj, rfl⟩ := List.getElem_of_mem hb
  have hp := List.pairwise_iff_getElem.1 hv.gap
  rcases Nat.lt_trichotomy i j with h | h | h
  · have := hp i j hi hj h
    rw [abs_sub_comm, le_abs]; left
    unfold Dim.uniqueKnots
    linarith
  · subst h; exact absurd rfl hab
  · have := hp j i hj hi h
    rw [le_abs]; left
    unfold Dim.uniqueKnots
    linarith

/-- the knots inside of the spans are new -/
theorem newOf_between {u : List K} (hu : u.Pairwise (· < ·)) {parts : ℕ → ℕ} {x : K} (hx : x ∈ Micro.newOf u parts) :
    ∃ i, i + 1 < u.length ∧ u.getD i 0 < x ∧ x < u.getD (i + 1) 0 := by
  obtain ⟨i, hi, hx⟩ := List.mem_flatMap.1 hx
  obtain ⟨j, hj, rfl⟩ := List.mem_map.1 hx
  rw [List.mem_range] at hi hj
  have hb := Micro.part_bounds (Micro.strict_getD hu (Nat.lt_succ_self i) (by omega : i + 1 < u.length)) (by omega : j + 1 < parts i)
  exact ⟨i, by omega, hb.2.2 (by omega), hb.2.1⟩

theorem newOf_inside {u : List K} (hu : u.Pairwise (· < ·)) {parts : ℕ → ℕ} {x : K} (hx : x ∈ Micro.newOf u parts) : x ∉ u ∧ u.getD 0 0 < x ∧ x < u.getD (u.length - 1) 0 := by
  obtain ⟨i, hi, h1, h2⟩ := newOf_between hu hx
  refine ⟨?_, lt_of_le_of_lt (Micro.mono_getD hu (Nat.zero_le i) (by omega)) h1, lt_of_lt_of_le h2 (Micro.mono_getD hu (by omega) (by omega))⟩
  intro h
  obtain ⟨j, hj, he⟩ := List.getElem_of_mem h
  rw [← List.getD_eq_getElem _ 0 hj] at he
  rcases Nat.lt_or_ge i j with hij | hij
  · have := Micro.mono_getD hu (show i + 1 ≤ j by omega) hj
    rw [he] at this
    exact absurd h2 (not_lt.2 this)
  · have := Micro.mono_getD hu hij (by omega)
    rw [he] at this
    exact absurd h1 (not_lt.2 this)

/-- subdivision of the spans -/
theorem adds_subdivide {tol : K} (ht : 0 < tol) {d : Dim K} {t : ℕ} (h1 : 1 ≤ t) (hv : d.Valid ((t : K) * tol)) (parts : ℕ → ℕ) (hp : ∀ i, 1 ≤ parts i)
    (hle : ∀ i < d.uniqueKnots.length - 1, parts i ≤ t) :
    Adds tol d (Micro.newOf d.uniqueKnots parts) (withBreaks d (Micro.Spec.subdivide d.uniqueKnots parts)) ∧
      (withBreaks d (Micro.Spec.subdivide d.uniqueKnots parts)).uniqueKnots = Micro.Spec.subdivide d.uniqueKnots parts := by
  have ht1 : (1 : K) ≤ t := by exact_mod_cast h1
  have hv1 : d.Valid tol := valid_mono (by nlinarith) hv
  have hu := unique_strict ht hv1
  have hne : d.uniqueKnots ≠ [] := by rw [unique_eq]; simp
  have hfst : d.uniqueKnots.getD 0 0 = d.first := by rw [unique_eq]; rfl
  have hlst : d.uniqueKnots.getD (d.uniqueKnots.length - 1) 0 = d.last := by
    have := unique_last d
    rwa [show d.groups.length = d.uniqueKnots.length by simp [Dim.uniqueKnots]] at this
  have hin : ∀ x ∈ Micro.newOf d.uniqueKnots parts, d.first < x ∧ x < d.last ∧ x ∉ d.knots := by
    intro x hx
    obtain ⟨a, b, c⟩ := newOf_inside hu hx
    rw [hfst] at b
    rw [hlst] at c
    exact ⟨b, c, fun h => a ((mem_knots hv1 x).1 h)⟩
  have hstrict := Micro.subdivide_strict d.uniqueKnots parts hu
  have hsep : Unique.Spec.Separated tol (d.knots ++ Micro.newOf d.uniqueKnots parts) := by
    have := Micro.separated_subdivide tol ht ⟨d.degree, d.knots⟩ (micro_valid ht hv1) t h1 (separated_knots (mul_pos (by linarith) ht) hv) parts hp
      (by simp only; rw [unique_knots_dim ht hv1]; exact hle)
    simp only [unique_knots_dim ht hv1] at this
    intro a ha b hb
    have hsub : ∀ a ∈ d.knots ++ Micro.newOf d.uniqueKnots parts, a ∈ d.knots ++ Micro.Spec.subdivide d.uniqueKnots parts := by
      intro a ha
      rcases List.mem_append.1 ha with h | h
      · exact List.mem_append_left _ h
      · exact List.mem_append_right _ ((Micro.newOf_sublist _ _ hp).subset h)
    exact this a (hsub a ha) b (hsub b hb)
  have hm := Micro.mem_subdivide d.uniqueKnots parts hne hp
  exact ⟨adds_withBreaks ht hv1 _ _ hstrict hm ((hstrict.imp ne_of_lt).sublist (Micro.newOf_sublist _ _ hp)) hin hsep,
    withBreaks_unique ht hv1 _ _ hstrict hm fun x hx => ⟨(hin x hx).1, (hin x hx).2.1⟩⟩

end Splinepy.AddKnots
