import Verif.Props.TileInverse
import Verif.Props.TileJoinsClosing3D

/-!
C109 for closing tiles: the closing tile of `InverseCross3D` surrounds the closing tile of `Cross3D`. The faces of the two on the plate have different degrees: they are the same after
elevation of the linear directions.
-/

namespace Splinepy.Tiles

open Spec

/-! ### Specification -/

/-- degree elevation of the first direction of a face which is linear in it (two control points become three, the new one in the middle); other faces are left alone -/
def Spec.liftA {α : Type} [Inhabited α] (mid : α → α → α) (f : List ℕ × List α) : List ℕ × List α :=
  match f.1 with
  | [2, b] => ([3, b], (List.range b).flatMap fun j => [f.2.getD (2 * j) default, mid (f.2.getD (2 * j) default) (f.2.getD (2 * j + 1) default), f.2.getD (2 * j + 1) default])
  | _ => f

/-- the same for the second direction -/
def Spec.liftB {α : Type} [Inhabited α] (mid : α → α → α) (f : List ℕ × List α) : List ℕ × List α :=
  match f.1 with
  | [a, 2] => ([a, 3], (List.range a).map (fun i => f.2.getD i default) ++ (List.range a).map (fun i => mid (f.2.getD i default) (f.2.getD (a + i) default)) ++
      (List.range a).map (fun i => f.2.getD (a + i) default))
  | _ => f

/-- the point in the middle -/
def Spec.middle {K : Type} [Field K] (x y : List K) : List K := List.zipWith (fun a b => (a + b) / 2) x y

/-- the face, and its elevations -/
def Spec.lifts {α : Type} [Inhabited α] (mid : α → α → α) (f : List ℕ × List α) : List (List ℕ × List α) := [f, liftA mid f, liftB mid f, liftB mid (liftA mid f)]

/-- No face is free, as in `Sealed`, but common faces may have different degrees: one of them is an elevation of the other, up to turning it. -/
def Spec.SealedElevated {K : Type} [Field K] (t : List (Patch K)) : Prop :=
  ∀ (i : ℕ) (P : Patch K), t[i]? = some P → ∀ f ∈ sides P, OnCell f.2 ∨ ∃ (j : ℕ) (Q : Patch K), j ≠ i ∧ t[j]? = some Q ∧ ∃ g ∈ sides Q,
    (∃ h ∈ lifts middle f, g ∈ readings h) ∨ ∃ h ∈ lifts middle g, f ∈ readings h

/-! ### tiles of numbers -/

/-- the numbers of middles; 99 stands for all values that are not in the table -/
def midCode (a b : ℕ) : ℕ := if a = b then a else if a = 0 ∧ b = 2 ∨ a = 2 ∧ b = 0 then 4 else if a = 5 ∧ b = 1 ∨ a = 1 ∧ b = 5 then 12 else 99

def midCodes (x y : List ℕ) : List ℕ := List.zipWith midCode x y

/-- all numbers of the elevated faces are in the table -/
def known (f : List ℕ × List (List ℕ)) : Bool := f.2.all fun x => x.all fun n => decide (n < 16)

section
variable {K : Type} [Field K] [LinearOrder K] [IsStrictOrderedRing K]

omit [LinearOrder K] [IsStrictOrderedRing K] in
theorem middle_decode {val : ℕ → K} (hm : ∀ a b, midCode a b < 16 → val (midCode a b) = (val a + val b) / 2) :
    ∀ {x y : List ℕ}, (∀ n ∈ midCodes x y, n < 16) → middle (x.map val) (y.map val) = (midCodes x y).map val
  | [], y, _ => by simp [middle, midCodes]
  | x :: xs, [], _ => by simp [middle, midCodes]
  | x :: xs, y :: ys, h => by
      have h1 := h (midCode x y) (by simp [midCodes])
      have h2 := middle_decode hm (x := xs) (y := ys) (fun n hn => h n (by simp [midCodes] at hn ⊢; exact Or.inr hn))
      simp only [middle, midCodes, List.map_cons, List.zipWith_cons_cons, List.cons.injEq] at h2 ⊢
      exact ⟨(hm x y h1).symm, h2⟩

omit [Field K] [LinearOrder K] [IsStrictOrderedRing K] in
theorem getD_map_default (val : ℕ → K) (f : List (List ℕ)) (n : ℕ) : (f.map (List.map val)).getD n default = (f.getD n default).map val := by
  rw [List.getD_eq_getElem?_getD, List.getD_eq_getElem?_getD, List.getElem?_map]
  cases f[n]? <;> simp [default]

omit [LinearOrder K] [IsStrictOrderedRing K] in
theorem liftA_decode {val : ℕ → K} (hm : ∀ a b, midCode a b < 16 → val (midCode a b) = (val a + val b) / 2) (f : List ℕ × List (List ℕ))
    (hk : known (liftA midCodes f) = true) : liftA middle (decodeSide val f) = decodeSide val (liftA midCodes f) := by
  obtain ⟨s, f⟩ := f
  unfold liftA at hk ⊢
  simp only [decodeSide] at hk ⊢
  split
  · rename_i b hb
    simp only [known, List.all_eq_true, decide_eq_true_eq] at hk
    simp only [Prod.mk.injEq, true_and, List.map_flatMap]
    refine List.flatMap_congr fun j hj => ?_
    simp only [List.map_cons, List.map_nil, getD_map_default]
    rw [middle_decode hm]
    exact hk _ (List.mem_flatMap.mpr ⟨j, hj, by simp⟩)
  · rfl

omit [LinearOrder K] [IsStrictOrderedRing K] in
theorem liftB_decode {val : ℕ → K} (hm : ∀ a b, midCode a b < 16 → val (midCode a b) = (val a + val b) / 2) (f : List ℕ × List (List ℕ))
    (hk : known (liftB midCodes f) = true) : liftB middle (decodeSide val f) = decodeSide val (liftB midCodes f) := by
  obtain ⟨s, f⟩ := f
  unfold liftB at hk ⊢
  simp only [decodeSide] at hk ⊢
  split
  · rename_i b hb
    simp only [known, List.all_eq_true, decide_eq_true_eq] at hk
    simp only [Prod.mk.injEq, true_and, List.map_append, List.map_map, Function.comp_def, getD_map_default]
    congr 2
    refine List.map_congr_left fun j hj => ?_
    rw [middle_decode hm]
    exact hk _ (by simp only [List.mem_append, List.mem_map]; exact Or.inl (Or.inr ⟨j, hj, rfl⟩))
  · rfl

/-- the elevations of a face of numbers that are in the table -/
def liftsB (f : List ℕ × List (List ℕ)) : List (List ℕ × List (List ℕ)) :=
  [f] ++ (if known (liftA midCodes f) then [liftA midCodes f] else []) ++ (if known (liftB midCodes f) then [liftB midCodes f] else []) ++
    (if known (liftA midCodes f) && known (liftB midCodes (liftA midCodes f)) then [liftB midCodes (liftA midCodes f)] else [])

omit [LinearOrder K] [IsStrictOrderedRing K] in
theorem lifts_decode {val : ℕ → K} (hm : ∀ a b, midCode a b < 16 → val (midCode a b) = (val a + val b) / 2) {f h : List ℕ × List (List ℕ)}
    (hh : h ∈ liftsB f) : decodeSide val h ∈ lifts middle (decodeSide val f) := by
  unfold liftsB at hh
  simp only [List.mem_append, List.mem_singleton, List.mem_ite_nil_right, Bool.and_eq_true] at hh
  unfold lifts
  rcases hh with ((rfl | ⟨hk, rfl⟩) | ⟨hk, rfl⟩) | ⟨⟨hk, hk'⟩, rfl⟩
  · simp
  · rw [← liftA_decode hm f hk]; simp
  · rw [← liftB_decode hm f hk]; simp
  · rw [← liftB_decode hm _ hk', ← liftA_decode hm f hk]; simp

/-- `SealedElevated` for a tile of numbers -/
def sealedElevatedB (t : List (Patch ℕ)) : Bool :=
  t.zipIdx.all fun P => (sides P.1).all fun f => (f.2.all fun x => decide (x.length = 3)) &&
    ((onCode f 0 0 || onCode f 0 1 || onCode f 1 0 || onCode f 1 1 || onCode f 2 0 || onCode f 2 1) ||
      t.zipIdx.any fun Q => decide (Q.2 ≠ P.2) && (sides Q.1).any fun g => ((liftsB f).any fun h => decide (g ∈ readings h)) || (liftsB g).any fun h => decide (f ∈ readings h))

omit [LinearOrder K] [IsStrictOrderedRing K] in
theorem sealed_elevated_decode {val : ℕ → K} (h0 : val 0 = 0) (h1 : val 1 = 1) (hm : ∀ a b, midCode a b < 16 → val (midCode a b) = (val a + val b) / 2) {t : List (Patch ℕ)}
    (h : sealedElevatedB t = true) : SealedElevated (decode val t) := by
  simp only [sealedElevatedB, List.all_eq_true, Bool.and_eq_true, Bool.or_eq_true, List.any_eq_true, decide_eq_true_eq] at h
  intro i P hP f hf
  simp only [decode, List.getElem?_map, Option.map_eq_some_iff] at hP
  obtain ⟨P, hP, rfl⟩ := hP
  rw [sides_decode] at hf
  obtain ⟨f, hf', rfl⟩ := List.mem_map.1 hf
  obtain ⟨l, h⟩ := h (P, i) (by rw [List.mem_iff_getElem?]; exact ⟨i, by simp [hP]⟩) f hf'
  have on : ∀ axis o, axis < 3 → onCode f axis o = true → OnPlane (decodeSide val f).2 axis (val o) := fun axis o ha ho => onPlane_of_code (fun x hx => by rw [l x hx]; exact ha) ho
  rcases h with h | ⟨⟨Q, j⟩, hQ, hj, g, hg, hr⟩
  · left
    rcases h with ((((h | h) | h) | h) | h) | h
    · exact ⟨0, by omega, Or.inl (h0 ▸ on 0 0 (by omega) h)⟩
    · exact ⟨0, by omega, Or.inr (h1 ▸ on 0 1 (by omega) h)⟩
    · exact ⟨1, by omega, Or.inl (h0 ▸ on 1 0 (by omega) h)⟩
    · exact ⟨1, by omega, Or.inr (h1 ▸ on 1 1 (by omega) h)⟩
    · exact ⟨2, by omega, Or.inl (h0 ▸ on 2 0 (by omega) h)⟩
    · exact ⟨2, by omega, Or.inr (h1 ▸ on 2 1 (by omega) h)⟩
  · right
    obtain ⟨k, hk⟩ := List.mem_iff_getElem?.1 hQ
    simp only [List.getElem?_zipIdx, Option.map_eq_some_iff, Prod.mk.injEq] at hk
    obtain ⟨Q', hQ', rfl, hkj⟩ := hk
    have hkj : k = j := by omega
    subst hkj
    refine ⟨k, decodePatch val Q', hj, by simp [decode, hQ'], decodeSide val g, ?_, ?_⟩
    · rw [sides_decode]; exact List.mem_map_of_mem hg
    · rcases hr with ⟨e, he, hr⟩ | ⟨e, he, hr⟩
      · exact Or.inl ⟨decodeSide val e, lifts_decode hm he, by rw [readings_decode]; exact List.mem_map_of_mem hr⟩
      · exact Or.inr ⟨decodeSide val e, lifts_decode hm he, by rw [readings_decode]; exact List.mem_map_of_mem hr⟩

/-! ### the closing tiles of `Cross3D` as tiles of numbers of the table of `InverseCross3D` -/

/-- block of numbers -/
def plateBlock (x0 x1 y0 y1 z0 z1 : ℕ) : Patch ℕ := ⟨[1, 1, 1], [[x0, y0, z0], [x1, y0, z0], [x0, y1, z0], [x1, y1, z0], [x0, y0, z1], [x1, y0, z1], [x0, y1, z1], [x1, y1, z1]]⟩

/-- blocks of numbers: 2 stands for the width, 5 for one minus the width -/
def plateCode (z0 z1 : ℕ) : List (Patch ℕ) :=
  [plateBlock 0 2 0 2 z0 z1, plateBlock 0 2 5 1 z0 z1, plateBlock 5 1 0 2 z0 z1, plateBlock 5 1 5 1 z0 z1, plateBlock 2 5 2 5 z0 z1,
   plateBlock 0 2 2 5 z0 z1, plateBlock 2 5 0 2 z0 z1, plateBlock 5 1 2 5 z0 z1, plateBlock 2 5 5 1 z0 z1]

/-- branch of numbers -/
def plateBranch (l0 u0 l1 u1 l2 u2 z0 z1 z2 : ℕ) : Patch ℕ :=
  ⟨[1, 1, 2], [[l0, l0, z0], [u0, l0, z0], [l0, u0, z0], [u0, u0, z0], [l1, l1, z1], [u1, l1, z1], [l1, u1, z1], [u1, u1, z1], [l2, l2, z2], [u2, l2, z2], [l2, u2, z2], [u2, u2, z2]]⟩

def cross3DCloseZMinCode : List (Patch ℕ) := plateCode 0 3 ++ [plateBranch 2 5 9 11 9 11 3 7 1]
def cross3DCloseZMaxCode : List (Patch ℕ) := plateCode 15 1 ++ [plateBranch 9 11 9 11 2 5 0 14 15]

theorem closing_sealed_codes : sealedElevatedB (cross3DCloseZMinCode ++ inverseCross3DCloseZMinCode) = true ∧
    sealedElevatedB (cross3DCloseZMaxCode ++ inverseCross3DCloseZMaxCode) = true := by decide +kernel

theorem close_code (s w f r : K) (hw : 0 < w ∧ w ≤ 1 / 3) (hf : 0 < f ∧ f < 1) :
    closeValues cross3DCloseZMin w f r = decode (look (inverseCloseVals s w f r)) cross3DCloseZMinCode ∧
    closeValues cross3DCloseZMax w f r = decode (look (inverseCloseVals s w f r)) cross3DCloseZMaxCode := by
  have hw' : 0 < w ∧ w < 1 / 2 := ⟨hw.1, by linarith [hw.2]⟩
  have e1 : max (w - (1 - 2 * w)) 0 = 0 := max_eq_right (by linarith [hw.2])
  have e2 : min (1 - w + (1 - 2 * w)) 1 = 1 := min_eq_right (by linarith [hw.2])
  have a1 : 1 / 2 - (1 - 2 * w) * (1 / 2) = w := by ring
  have a2 : 1 / 2 + (1 - 2 * w) * (1 / 2) = 1 - w := by ring
  rw [(close_z_min_eq w f r hw' hf).1, (close_z_max_eq w f r hw' hf).1, e1, e2]
  constructor
  · simp only [blocks, block, branch, a1, a2, cross3DCloseZMinCode, plateCode, plateBlock, plateBranch, decode, decodePatch, List.map_cons, List.map_nil, List.map_append, look,
      inverseCloseVals, inverseCloseTable, List.getD_cons_zero, List.getD_cons_succ]
  · simp only [blocks, block, branch, a1, a2, cross3DCloseZMaxCode, plateCode, plateBlock, plateBranch, decode, decodePatch, List.map_cons, List.map_nil, List.map_append, look,
      inverseCloseVals, inverseCloseTable, List.getD_cons_zero, List.getD_cons_succ]

theorem mid_ok (s w f r : K) (a b : ℕ) (h : midCode a b < 16) :
    look (inverseCloseVals s w f r) (midCode a b) = (look (inverseCloseVals s w f r) a + look (inverseCloseVals s w f r) b) / 2 := by
  unfold midCode at h ⊢
  split_ifs at h ⊢ with h1 h2 h3
  · subst h1; ring
  · rcases h2 with ⟨rfl, rfl⟩ | ⟨rfl, rfl⟩ <;>
      (simp only [look, inverseCloseVals, inverseCloseTable, List.getD_cons_zero, List.getD_cons_succ]; ring)
  · rcases h3 with ⟨rfl, rfl⟩ | ⟨rfl, rfl⟩ <;>
      (simp only [look, inverseCloseVals, inverseCloseTable, List.getD_cons_zero, List.getD_cons_succ]; ring)
  · omega

/-- C109, closing tiles: with the same parameters, the same plate (`boundary_width` at most 1/3, `filling_height`), any expansions and separator distance, the closing tiles of `Cross3D` and
`InverseCross3D` leave no face free; the faces of the two on the plate are the same after degree elevation. -/
theorem inverse_cross_closing_fits_partial (closure : String) (expansion expansion' bound fill : K) (separator : Option K) (p : Option (Mat K)) (ss ss' : Option (List (Mat K)))
    (T U : Tile K) (hb : bound ≤ 1 / 3) (hT : createCross3D expansion bound fill (some closure) p ss = some T)
    (hU : createInverseCross3D expansion' bound fill separator (some closure) p ss' = some U) : SealedElevated (T.splines ++ U.splines) := by
  obtain ⟨s, a, b, c, d, e, f, -, hp, -, -, hc⟩ := inverse_cases hU
  simp only [createCross3D, Option.ite_none_right_eq_some, Bool.and_eq_true, decide_eq_true_eq] at hT
  obtain ⟨-, h⟩ := hT
  rw [hp] at h
  simp only [cross3DClosing, Option.ite_none_right_eq_some, Bool.and_eq_true, decide_eq_true_eq] at h
  obtain ⟨⟨⟨_, g1, g2⟩, g3, g4⟩, h⟩ := h
  rcases hc with ⟨hc, -⟩ | ⟨-, ⟨hc, hU'⟩ | ⟨hc, hU'⟩⟩
  · simp at hc
  · rw [Option.some.injEq] at hc; subst hc
    simp only [cross3DCloseBranch, if_true, Option.some.injEq] at h
    subst h
    simp only [assemble, entry, List.getD_cons_zero, List.getD_cons_succ]
    rw [hU', (close_code s bound fill f ⟨g1, hb⟩ ⟨g3, g4⟩).1, decode, decode, ← List.map_append]
    exact sealed_elevated_decode rfl rfl (mid_ok s bound fill f) closing_sealed_codes.1
  · rw [Option.some.injEq] at hc; subst hc
    simp only [cross3DCloseBranch, if_true, Option.some.injEq, show ("z_max" = "z_min") = False by simp, if_false] at h
    subst h
    simp only [assemble, entry, List.getD_cons_zero, List.getD_cons_succ]
    rw [hU', (close_code s bound fill e ⟨g1, hb⟩ ⟨g3, g4⟩).2, decode, decode, ← List.map_append]
    exact sealed_elevated_decode rfl rfl (mid_ok s bound fill e) closing_sealed_codes.2

example : (createCross3D (1 : ℚ) (1 / 10) (1 / 2) (some "z_min") none none).isSome = true ∧ (createInverseCross3D (1 : ℚ) (1 / 10) (1 / 2) none (some "z_min") none none).isSome = true ∧
    (createCross3D (1 : ℚ) (1 / 10) (1 / 2) (some "z_max") none none).isSome = true ∧ (createInverseCross3D (1 : ℚ) (1 / 10) (1 / 2) none (some "z_max") none none).isSome = true := by
  decide +kernel

end

/-- C109 as stated (control point by control point) fails for closing tiles, with the default parameters: the faces of the two tiles on the plate have different degrees, so that the two
materials do not meet along conforming interfaces. -/
theorem inverse_cross_closing_violates : ∀ closure ∈ ["z_min", "z_max"], ∃ T U : Tile ℚ, createCross3D 1 (1 / 10) (1 / 2) (some closure) none none = some T ∧
    createInverseCross3D 1 (1 / 10) (1 / 2) none (some closure) none none = some U ∧ ¬ Sealed (T.splines ++ U.splines) := by
  intro closure hc
  have key : ∀ (k : ℕ) (t : List (Patch ℚ)) (P : Patch ℚ) (hk : k < (sides P).length), t[0]? = some P → ¬ OnCell ((sides P)[k]).2 →
      (∀ Q ∈ t.eraseIdx 0, ∀ g ∈ sides Q, g ∉ readings ((sides P)[k])) → ¬ Sealed t := by
    intro k t P hk hP hn hQ hS
    rcases hS 0 P hP _ (List.getElem_mem (n := k) hk) with h | ⟨j, Q, hj, hQ', g, hg, hr⟩
    · exact hn h
    · exact hQ Q (List.mem_eraseIdx_iff_getElem?.2 ⟨j, hj, hQ'⟩) g hg hr
  simp only [List.mem_cons, List.not_mem_nil, or_false] at hc
  rcases hc with rfl | rfl
  · obtain ⟨T, hT⟩ : ∃ T, createCross3D (1 : ℚ) (1 / 10) (1 / 2) (some "z_min") none none = some T := Option.isSome_iff_exists.mp (by decide +kernel)
    obtain ⟨U, hU⟩ : ∃ U, createInverseCross3D (1 : ℚ) (1 / 10) (1 / 2) none (some "z_min") none none = some U := Option.isSome_iff_exists.mp (by decide +kernel)
    refine ⟨T, U, hT, hU, ?_⟩
    have hT' : T.splines = ((createCross3D (1 : ℚ) (1 / 10) (1 / 2) (some "z_min") none none).map (·.splines)).getD [] := by rw [hT]; rfl
    have hU' : U.splines = ((createInverseCross3D (1 : ℚ) (1 / 10) (1 / 2) none (some "z_min") none none).map (·.splines)).getD [] := by rw [hU]; rfl
    rw [hT', hU']
    refine key 5 _ (block 0 (1 / 10) 0 (1 / 10) 0 (1 / 2)) (by decide +kernel) (by decide +kernel) ?_ (by decide +kernel)
    unfold OnCell OnPlane
    decide +kernel
  · obtain ⟨T, hT⟩ : ∃ T, createCross3D (1 : ℚ) (1 / 10) (1 / 2) (some "z_max") none none = some T := Option.isSome_iff_exists.mp (by decide +kernel)
    obtain ⟨U, hU⟩ : ∃ U, createInverseCross3D (1 : ℚ) (1 / 10) (1 / 2) none (some "z_max") none none = some U := Option.isSome_iff_exists.mp (by decide +kernel)
    refine ⟨T, U, hT, hU, ?_⟩
    have hT' : T.splines = ((createCross3D (1 : ℚ) (1 / 10) (1 / 2) (some "z_max") none none).map (·.splines)).getD [] := by rw [hT]; rfl
    have hU' : U.splines = ((createInverseCross3D (1 : ℚ) (1 / 10) (1 / 2) none (some "z_max") none none).map (·.splines)).getD [] := by rw [hU]; rfl
    rw [hT', hU']
    refine key 4 _ (block 0 (1 / 10) 0 (1 / 10) (1 / 2) 1) (by decide +kernel) (by decide +kernel) ?_ (by decide +kernel)
    unfold OnCell OnPlane
    decide +kernel

end Splinepy.Tiles
