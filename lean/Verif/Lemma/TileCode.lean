import Verif.Spec.TileFaces

/-!
Tiles whose coordinates are numbers of a table of values: what is true of the numbers is true of the values.
-/

namespace Splinepy.Tiles

open Spec

/-- put the values for the numbers -/
def decodePatch {K : Type} (val : ℕ → K) (P : Patch ℕ) : Patch K := ⟨P.degrees, P.cps.map (List.map val)⟩

/-- put the values for the numbers -/
def decode {K : Type} (val : ℕ → K) (t : List (Patch ℕ)) : List (Patch K) := t.map (decodePatch val)

/-- value number `n` of a table -/
def look {K : Type} [Zero K] (vals : List K) (n : ℕ) : K := vals.getD n 0

theorem decode_decode {K : Type} (val : ℕ → K) (f : ℕ → ℕ) (t : List (Patch ℕ)) : decode val (decode f t) = decode (fun n => val (f n)) t := by
  simp only [decode, List.map_map]
  refine List.map_congr_left fun P _ => ?_
  simp only [Function.comp, decodePatch, List.map_map, Patch.mk.injEq, true_and]
  exact List.map_congr_left fun c _ => by simp [Function.comp]

/-- numbers of all control points below `N` -/
def below (N : ℕ) (t : List (Patch ℕ)) : Bool := t.all fun P => P.cps.all fun c => c.all fun n => decide (n < N)

theorem below_iff (N : ℕ) (t : List (Patch ℕ)) : below N t = true ↔ ∀ P ∈ t, ∀ c ∈ P.cps, ∀ n ∈ c, n < N := by simp [below]

theorem decode_congr {K : Type} {f g : ℕ → K} {N : ℕ} (h : ∀ n < N, f n = g n) {t : List (Patch ℕ)} (ht : below N t = true) : decode f t = decode g t := by
  rw [below_iff] at ht
  refine List.map_congr_left fun P hP => ?_
  simp only [decodePatch, Patch.mk.injEq, true_and]
  exact List.map_congr_left fun c hc => List.map_congr_left fun n hn => h n (ht P hP c hc n hn)

/-- another table -/
theorem recode {K : Type} [Zero K] {raw vals : List K} (norm : List ℕ) (h : raw = norm.map (look vals)) {t : List (Patch ℕ)} (ht : below norm.length t = true) :
    decode (look raw) t = decode (look vals) (decode (fun n => norm.getD n 0) t) := by
  rw [decode_decode]
  refine decode_congr (fun n hn => ?_) ht
  subst h
  rw [look, List.getD_eq_getElem _ _ (by simpa using hn), List.getElem_map, List.getD_eq_getElem _ _ hn]

theorem face_decode {K : Type} (val : ℕ → K) (P : Patch ℕ) (d : ℕ) (l : Bool) : face (decodePatch val P) d l = (face P d l).map (List.map val) := by
  simp only [face, decodePatch, List.map_map]
  refine List.map_congr_left fun i _ => ?_
  simp only [Function.comp]
  rw [List.getD_eq_getElem?_getD, List.getD_eq_getElem?_getD, List.getElem?_map]
  cases P.cps[i]? <;> simp

/-- put the values for the numbers -/
def decodeSide {K : Type} (val : ℕ → K) (f : List ℕ × List (List ℕ)) : List ℕ × List (List K) := (f.1, f.2.map (List.map val))

theorem sides_decode {K : Type} (val : ℕ → K) (P : Patch ℕ) : sides (decodePatch val P) = (sides P).map (decodeSide val) := by
  simp only [sides, List.map_flatMap, List.map_cons, List.map_nil, decodeSide, face_decode]
  rfl

theorem turn_map {α β : Type} [Inhabited α] [Inhabited β] (φ : α → β) (hφ : φ default = default) (a b : ℕ) (s p q : Bool) (f : List α) :
    turn a b s p q (f.map φ) = (turn a b s p q f).map φ := by
  have key : ∀ n, (f.map φ).getD n default = φ (f.getD n default) := by
    intro n
    rw [List.getD_eq_getElem?_getD, List.getD_eq_getElem?_getD, List.getElem?_map]
    cases f[n]? <;> simp [hφ]
  simp only [turn, key]
  split <;> simp [List.map_flatMap, Function.comp_def]

theorem readings_decode {K : Type} (val : ℕ → K) (f : List ℕ × List (List ℕ)) : readings (decodeSide val f) = (readings f).map (decodeSide val) := by
  obtain ⟨s, f⟩ := f
  have hd : (List.map val (default : List ℕ)) = (default : List K) := rfl
  match s with
  | [] => simp [readings, decodeSide]
  | [a] => simp [readings, decodeSide, turn_map _ hd]
  | [a, b] => simp [readings, decodeSide, turn_map _ hd]
  | _ :: _ :: _ :: _ => simp [readings, decodeSide]

theorem shares_decode {K : Type} (val : ℕ → K) {P Q : Patch ℕ} (h : Shares P Q) : Shares (decodePatch val P) (decodePatch val Q) := by
  obtain ⟨f, hf, g, hg, hr⟩ := h
  refine ⟨decodeSide val f, ?_, decodeSide val g, ?_, ?_⟩
  · rw [sides_decode]; exact List.mem_map_of_mem hf
  · rw [sides_decode]; exact List.mem_map_of_mem hg
  · rw [readings_decode]; exact List.mem_map_of_mem hr

theorem adjacent_decode {K : Type} (val : ℕ → K) {t : List (Patch ℕ)} {i j : ℕ} (h : Adjacent t i j) : Adjacent (decode val t) i j := by
  obtain ⟨P, Q, hP, hQ, h⟩ := h
  exact ⟨decodePatch val P, decodePatch val Q, by simp [decode, hP], by simp [decode, hQ], h.imp (shares_decode val) (shares_decode val)⟩

theorem connected_decode {K : Type} (val : ℕ → K) {t : List (Patch ℕ)} (h : Connected t) : Connected (decode val t) := by
  intro i j hi hj
  simp only [decode, List.length_map] at hi hj
  exact Relation.ReflTransGen.mono (fun a b => adjacent_decode val) _ _ (h i j hi hj)

theorem adjacent_symm {K : Type} {t : List (Patch K)} {i j : ℕ} (h : Adjacent t i j) : Adjacent t j i := by
  obtain ⟨P, Q, hP, hQ, h⟩ := h
  exact ⟨Q, P, hQ, hP, h.symm⟩

/-- two patches of a tile of numbers have a face in common -/
def adjacentB (t : List (Patch ℕ)) (i j : ℕ) : Bool :=
  match t[i]?, t[j]? with
  | some P, some Q => decide (Shares P Q) || decide (Shares Q P)
  | _, _ => false

theorem adjacentB_iff {t : List (Patch ℕ)} {i j : ℕ} (h : adjacentB t i j = true) : Adjacent t i j := by
  simp only [adjacentB] at h
  split at h
  · next P Q hP hQ => exact ⟨P, Q, hP, hQ, by simpa using h⟩
  · simp at h

/-- `tree` lists patches in an order in which each one has a face in common with an earlier one, or with patch 0 -/
def spans (t : List (Patch ℕ)) : List ℕ → List (ℕ × ℕ) → Bool
  | seen, [] => decide (∀ i < t.length, i ∈ seen)
  | seen, (i, j) :: rest => decide (j ∈ seen) && adjacentB t i j && spans t (i :: seen) rest

theorem connected_of_spans {t : List (Patch ℕ)} (tree : List (ℕ × ℕ)) (h : spans t [0] tree = true) : Connected t := by
  have key : ∀ (tree : List (ℕ × ℕ)) (seen : List ℕ), spans t seen tree = true → (∀ i ∈ seen, Relation.ReflTransGen (Adjacent t) i 0) →
      ∀ i < t.length, Relation.ReflTransGen (Adjacent t) i 0 := by
    intro tree
    induction tree with
    | nil => intro seen h hs i hi; exact hs i (by simp only [spans, decide_eq_true_eq] at h; exact h i hi)
    | cons e rest ih =>
      obtain ⟨i, j⟩ := e
      intro seen h hs
      simp only [spans, Bool.and_eq_true, decide_eq_true_eq] at h
      obtain ⟨⟨h1, h2⟩, h3⟩ := h
      refine ih _ h3 fun k hk => ?_
      rcases List.mem_cons.1 hk with rfl | hk
      · exact Relation.ReflTransGen.head (adjacentB_iff h2) (hs j h1)
      · exact hs k hk
  have all := key tree [0] h (by simpa using Relation.ReflTransGen.refl)
  intro i j hi hj
  refine (all i hi).trans ?_
  have sym : ∀ a b, Relation.ReflTransGen (Adjacent t) a b → Relation.ReflTransGen (Adjacent t) b a := by
    intro a b hab
    induction hab with
    | refl => exact Relation.ReflTransGen.refl
    | tail _ h ih => exact Relation.ReflTransGen.head (adjacent_symm h) ih
  exact sym _ _ (all j hj)

section
variable {K : Type} [Field K] [LinearOrder K]

theorem inUnitCube_decode {val : ℕ → K} {N : ℕ} {t : List (Patch ℕ)} (ht : below N t = true) (h : ∀ n < N, 0 ≤ val n ∧ val n ≤ 1) : InUnitCube (decode val t) := by
  rw [below_iff] at ht
  intro P hP c hc x hx
  simp only [decode, List.mem_map] at hP
  obtain ⟨Q, hQ, rfl⟩ := hP
  simp only [decodePatch, List.mem_map] at hc
  obtain ⟨r, hr, rfl⟩ := hc
  obtain ⟨n, hn, rfl⟩ := List.mem_map.1 hx
  exact h n (ht Q hQ r hr n hn)

/-- the rows of all faces have an entry `axis`, and all numbers are below `N` -/
def tidy (t : List (Patch ℕ)) (axis N : ℕ) : Bool := (t.flatMap sides).all fun f => f.2.all fun x => decide (axis < x.length) && x.all fun n => decide (n < N)

theorem tidy_iff {t : List (Patch ℕ)} {axis N : ℕ} : tidy t axis N = true ↔ ∀ f ∈ t.flatMap sides, ∀ x ∈ f.2, axis < x.length ∧ ∀ n ∈ x, n < N := by
  simp only [tidy, List.all_eq_true, Bool.and_eq_true, decide_eq_true_eq]

/-- the face has number `o` everywhere in column `axis` -/
def onCode (f : List ℕ × List (List ℕ)) (axis o : ℕ) : Bool := f.2.all fun x => decide (x.getD axis 0 = o)

omit [LinearOrder K] in
theorem onPlane_decode {val : ℕ → K} {N axis o : ℕ} {v : K} (ho : ∀ n < N, val n = v ↔ n = o) {f : List ℕ × List (List ℕ)} (hf : ∀ x ∈ f.2, axis < x.length ∧ ∀ n ∈ x, n < N) :
    OnPlane (decodeSide val f).2 axis v ↔ onCode f axis o = true := by
  have e : ∀ x ∈ f.2, (x.map val).getD axis 0 = v ↔ x.getD axis 0 = o := by
    intro x hx
    obtain ⟨h1, h2⟩ := hf x hx
    rw [List.getD_eq_getElem _ _ (by simpa using h1), List.getElem_map, List.getD_eq_getElem _ _ h1]
    exact ho _ (h2 _ (List.getElem_mem h1))
  simp only [OnPlane, decodeSide, onCode, List.mem_map, forall_exists_index, and_imp, forall_apply_eq_imp_iff₂, List.all_eq_true, decide_eq_true_eq]
  exact forall₂_congr e

theorem sides_decode' {L : Type} (val : ℕ → L) (t : List (Patch ℕ)) : (decode val t).flatMap sides = (t.flatMap sides).map (decodeSide val) := by
  simp only [decode, List.flatMap_map, List.map_flatMap, sides_decode]

/-- one half of `Meets`, for the numbers: every face of `t` on the side `o` is a face of `u` on the side `z`, and its numbers belong to `C` -/
def meetsHalf (t u : List (Patch ℕ)) (axis o z : ℕ) (C : List ℕ) : Bool :=
  (t.flatMap sides).all fun f => !onCode f axis o || (u.flatMap sides).any fun g =>
    onCode g axis z && decide ((g.1, g.2.map fun x => x.set axis o) ∈ readings f) && g.2.all fun x => (x.set axis o).all fun n => decide (n ∈ C)

omit [LinearOrder K] in
theorem meets_half {val val' : ℕ → K} {N N' axis o z : ℕ} {a b : K} {C : List ℕ} {t u : List (Patch ℕ)} (ho : ∀ n < N, val n = a ↔ n = o) (hz : ∀ n < N', val' n = b ↔ n = z)
    (hoa : val' o = a) (hC : ∀ n ∈ C, val n = val' n) (ht : tidy t axis N = true) (hu : tidy u axis N' = true) (h : meetsHalf t u axis o z C = true) :
    ∀ f ∈ (decode val t).flatMap sides, OnPlane f.2 axis a →
      ∃ g ∈ (decode val' u).flatMap sides, OnPlane g.2 axis b ∧ (g.1, g.2.map fun x => x.set axis a) ∈ readings f := by
  rw [tidy_iff] at ht hu
  rw [sides_decode', sides_decode']
  intro f hf hfa
  obtain ⟨f, hm, rfl⟩ := List.mem_map.1 hf
  rw [onPlane_decode ho (ht f hm)] at hfa
  simp only [meetsHalf, List.all_eq_true, Bool.or_eq_true, Bool.not_eq_true', List.any_eq_true, Bool.and_eq_true, decide_eq_true_eq] at h
  obtain h | ⟨g, hg, ⟨hgz, hr⟩, hc⟩ := h f hm
  · rw [hfa] at h; cases h
  · refine ⟨_, List.mem_map_of_mem hg, (onPlane_decode hz (hu g hg)).2 hgz, ?_⟩
    rw [readings_decode]
    have e : ((decodeSide val' g).1, (decodeSide val' g).2.map fun x => x.set axis a) = decodeSide val (g.1, g.2.map fun x => x.set axis o) := by
      simp only [decodeSide, List.map_map, Prod.mk.injEq, true_and]
      refine List.map_congr_left fun x hx => ?_
      simp only [Function.comp]
      rw [List.map_congr_left (fun n hn => hC n (hc x hx n hn)), List.map_set, hoa]
    rw [e]
    exact List.mem_map_of_mem hr

omit [LinearOrder K] in
/-- Two tiles of numbers meet. -/
theorem meets_decode {val val' : ℕ → K} {N N' axis o z : ℕ} {C : List ℕ} {t u : List (Patch ℕ)} (ho : ∀ n < N, val n = 1 ↔ n = o) (hz : ∀ n < N', val' n = 0 ↔ n = z)
    (ho' : val' o = 1) (hz' : val z = 0) (hC : ∀ n ∈ C, val n = val' n) (ht : tidy t axis N = true) (hu : tidy u axis N' = true)
    (h1 : meetsHalf t u axis o z C = true) (h2 : meetsHalf u t axis z o C = true) : Meets (decode val t) (decode val' u) axis :=
  ⟨meets_half ho hz ho' hC ht hu h1, meets_half hz ho hz' (fun n hn => (hC n hn).symm) hu ht h2⟩

/-- other numbers for some of the numbers -/
def via (l : List (ℕ × ℕ)) (n : ℕ) : ℕ := (l.lookup n).getD n

/-- `meetsHalf` for tables which number the values differently: number `n` of `u` stands for number `via l n` of `t` -/
def meetsHalfVia (t u : List (Patch ℕ)) (axis o z : ℕ) (l : List (ℕ × ℕ)) (C : List ℕ) : Bool :=
  (t.flatMap sides).all fun f => !onCode f axis o || (u.flatMap sides).any fun g =>
    onCode g axis z && decide ((g.1, g.2.map fun x => (x.map (via l)).set axis o) ∈ readings f) && g.2.all fun x => x.all fun n => decide (n ∈ C)

omit [LinearOrder K] in
theorem meets_half_via {val val' : ℕ → K} {N N' axis o z : ℕ} {a b : K} {l : List (ℕ × ℕ)} {C : List ℕ} {t u : List (Patch ℕ)} (ho : ∀ n < N, val n = a ↔ n = o)
    (hz : ∀ n < N', val' n = b ↔ n = z) (hoa : val o = a) (hC : ∀ n ∈ C, val (via l n) = val' n) (ht : tidy t axis N = true) (hu : tidy u axis N' = true)
    (h : meetsHalfVia t u axis o z l C = true) :
    ∀ f ∈ (decode val t).flatMap sides, OnPlane f.2 axis a →
      ∃ g ∈ (decode val' u).flatMap sides, OnPlane g.2 axis b ∧ (g.1, g.2.map fun x => x.set axis a) ∈ readings f := by
  rw [tidy_iff] at ht hu
  rw [sides_decode', sides_decode']
  intro f hf hfa
  obtain ⟨f, hm, rfl⟩ := List.mem_map.1 hf
  rw [onPlane_decode ho (ht f hm)] at hfa
  simp only [meetsHalfVia, List.all_eq_true, Bool.or_eq_true, Bool.not_eq_true', List.any_eq_true, Bool.and_eq_true, decide_eq_true_eq] at h
  obtain h | ⟨g, hg, ⟨hgz, hr⟩, hc⟩ := h f hm
  · rw [hfa] at h; cases h
  · refine ⟨_, List.mem_map_of_mem hg, (onPlane_decode hz (hu g hg)).2 hgz, ?_⟩
    rw [readings_decode]
    have e : ((decodeSide val' g).1, (decodeSide val' g).2.map fun x => x.set axis a) = decodeSide val (g.1, g.2.map fun x => (x.map (via l)).set axis o) := by
      simp only [decodeSide, List.map_map, Prod.mk.injEq, true_and]
      refine List.map_congr_left fun x hx => ?_
      simp only [Function.comp]
      rw [List.map_set, List.map_map, hoa]
      congr 1
      exact List.map_congr_left fun n hn => (hC n (hc x hx n hn)).symm
    rw [e]
    exact List.mem_map_of_mem hr

omit [LinearOrder K] in
/-- Two tiles of numbers of different tables meet. -/
theorem meets_decode_via {val val' : ℕ → K} {N N' axis o z : ℕ} (l l' : List (ℕ × ℕ)) (C C' : List ℕ) {t u : List (Patch ℕ)} (ho : ∀ n < N, val n = 1 ↔ n = o)
    (hz : ∀ n < N', val' n = 0 ↔ n = z) (ho' : val o = 1) (hz' : val' z = 0) (hC : ∀ n ∈ C, val (via l n) = val' n) (hC' : ∀ n ∈ C', val' (via l' n) = val n)
    (ht : tidy t axis N = true) (hu : tidy u axis N' = true)
    (h1 : meetsHalfVia t u axis o z l C = true) (h2 : meetsHalfVia u t axis z o l' C' = true) : Meets (decode val t) (decode val' u) axis :=
  ⟨meets_half_via ho hz ho' hC ht hu h1, meets_half_via hz ho hz' hC' hu ht h2⟩

/-- `Sealed` for a tile of numbers; number 0 stands for 0, number 1 for 1 -/
def sealedB (t : List (Patch ℕ)) : Bool :=
  t.zipIdx.all fun P => (sides P.1).all fun f => (f.2.all fun x => decide (x.length = 3)) &&
    ((onCode f 0 0 || onCode f 0 1 || onCode f 1 0 || onCode f 1 1 || onCode f 2 0 || onCode f 2 1) ||
      t.zipIdx.any fun Q => decide (Q.2 ≠ P.2) && (sides Q.1).any fun g => decide (g ∈ readings f))

omit [LinearOrder K] in
theorem onPlane_of_code {val : ℕ → K} {axis o : ℕ} {f : List ℕ × List (List ℕ)} (hf : ∀ x ∈ f.2, axis < x.length) (h : onCode f axis o = true) :
    OnPlane (decodeSide val f).2 axis (val o) := by
  simp only [onCode, List.all_eq_true, decide_eq_true_eq] at h
  intro x hx
  simp only [decodeSide] at hx
  obtain ⟨y, hy, rfl⟩ := List.mem_map.1 hx
  have h1 := hf y hy
  have h2 := h y hy
  rw [List.getD_eq_getElem _ _ h1] at h2
  rw [List.getD_eq_getElem _ _ (by simpa using h1), List.getElem_map, h2]

omit [LinearOrder K] in
theorem sealed_decode {val : ℕ → K} (h0 : val 0 = 0) (h1 : val 1 = 1) {t : List (Patch ℕ)} (h : sealedB t = true) : Sealed (decode val t) := by
  simp only [sealedB, List.all_eq_true, Bool.and_eq_true, Bool.or_eq_true, List.any_eq_true, decide_eq_true_eq] at h
  intro i P hP f hf
  simp only [decode, List.getElem?_map, Option.map_eq_some_iff] at hP
  obtain ⟨P, hP, rfl⟩ := hP
  rw [sides_decode] at hf
  obtain ⟨f, hf', rfl⟩ := List.mem_map.1 hf
  obtain ⟨l, h⟩ := h (P, i) (by rw [List.mem_iff_getElem?]; exact ⟨i, by simp [hP]⟩) f hf'
  have on : ∀ axis o, axis < 3 → onCode f axis o = true → OnPlane (decodeSide val f).2 axis (val o) := fun axis o ha ho => onPlane_of_code (fun x hx => by rw [l x hx]; exact ha) ho
  rcases h with h | ⟨⟨Q, j⟩, hQ, hj, g, hg, hr⟩
  · left
    rcases h with ((((h | h) | h) | h) | h) | h
    · exact ⟨0, by omega, Or.inl (h0 ▸ on 0 0 (by omega) h)⟩
    · exact ⟨0, by omega, Or.inr (h1 ▸ on 0 1 (by omega) h)⟩
    · exact ⟨1, by omega, Or.inl (h0 ▸ on 1 0 (by omega) h)⟩
    · exact ⟨1, by omega, Or.inr (h1 ▸ on 1 1 (by omega) h)⟩
    · exact ⟨2, by omega, Or.inl (h0 ▸ on 2 0 (by omega) h)⟩
    · exact ⟨2, by omega, Or.inr (h1 ▸ on 2 1 (by omega) h)⟩
  · right
    obtain ⟨k, hk⟩ := List.mem_iff_getElem?.1 hQ
    simp only [List.getElem?_zipIdx, Option.map_eq_some_iff, Prod.mk.injEq] at hk
    obtain ⟨Q', hQ', rfl, hkj⟩ := hk
    have hkj : k = j := by omega
    subst hkj
    refine ⟨k, decodePatch val Q', hj, by simp [decode, hQ'], decodeSide val g, ?_, ?_⟩
    · rw [sides_decode]; exact List.mem_map_of_mem hg
    · rw [readings_decode]; exact List.mem_map_of_mem hr

end

end Splinepy.Tiles
