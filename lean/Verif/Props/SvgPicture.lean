import Verif.Model.SvgExport
import Mathlib.Data.Rat.Floor
import Mathlib.Data.List.GetD

/-!
C99: colours are written as six hexadecimal digits. C100: the crop of field pictures.
-/
namespace Splinepy.Svg

set_option linter.unusedSectionVars false
variable {K : Type} [Field K] [LinearOrder K] [IsStrictOrderedRing K]

/-! ### Specification -/

/-- Value of a hexadecimal digit in lower case. -/
def Spec.digitValue (c : Char) : Option ℕ := ['0', '1', '2', '3', '4', '5', '6', '7', '8', '9', 'a', 'b', 'c', 'd', 'e', 'f'].findIdx? (· = c)

/-- How a browser reads a colour `#rrggbb`: three numbers from 0 to 255. -/
def Spec.readColour : List Char → Option (ℕ × ℕ × ℕ)
  | ['#', r1, r0, g1, g0, b1, b0] => do
    let r1 ← digitValue r1
    let r0 ← digitValue r0
    let g1 ← digitValue g1
    let g0 ← digitValue g0
    let b1 ← digitValue b1
    let b0 ← digitValue b0
    pure (16 * r1 + r0, 16 * g1 + g0, 16 * b1 + b0)
  | _ => none

/-- The pixel in row `i` and column `j`. -/
def Spec.pixel {P : Type} (bitmap : List (List P)) (i j : ℕ) : Option P := bitmap[i]?.bind (·[j]?)

/-! ### Colours -/

theorem hex2_spec (n : ℕ) (hn : n < 256) : ∃ a b x y, hex2 (n : ℤ) = [a, b] ∧ Spec.digitValue a = some x ∧ Spec.digitValue b = some y ∧ 16 * x + y = n := by
  have h : ∀ n : ℕ, n < 256 → ((hex2 (n : ℤ)).length = 2 ∧ ((Spec.digitValue ((hex2 (n : ℤ)).getD 0 ' ')).isSome ∧ (Spec.digitValue ((hex2 (n : ℤ)).getD 1 ' ')).isSome ∧
      16 * (Spec.digitValue ((hex2 (n : ℤ)).getD 0 ' ')).getD 0 + (Spec.digitValue ((hex2 (n : ℤ)).getD 1 ' ')).getD 0 = n)) := by
    decide +kernel
  obtain ⟨h1, h2, h3, h4⟩ := h n hn
  obtain ⟨a, b, e⟩ := List.length_eq_two.1 h1
  rw [e] at h2 h3 h4
  obtain ⟨x, hx⟩ := Option.isSome_iff_exists.1 h2
  obtain ⟨y, hy⟩ := Option.isSome_iff_exists.1 h3
  refine ⟨a, b, x, y, e, hx, hy, ?_⟩
  rw [hx, hy] at h4
  exact h4

theorem truncate_spec [FloorRing K] {r : K} (h0 : 0 ≤ r) (h1 : r ≤ 1) : ∃ n : ℕ, n < 256 ∧ truncate (255 * r) = n ∧ (n : K) ≤ 255 * r ∧ 255 * r < n + 1 := by
  have h : 0 ≤ 255 * r := by linarith
  have hf : 0 ≤ ⌊255 * r⌋ := Int.floor_nonneg.2 h
  obtain ⟨n, hn⟩ := Int.eq_ofNat_of_zero_le hf
  have e1 := Int.floor_le (255 * r)
  have e2 := Int.lt_floor_add_one (255 * r)
  rw [hn] at e1 e2
  push_cast at e1 e2
  refine ⟨n, ?_, by rw [truncate, if_pos h, hn], e1, e2⟩
  by_contra hc
  have : (256 : K) ≤ n := by exact_mod_cast not_lt.1 hc
  linarith

/-- C99: the colour that is written for red, green and blue between 0 and 1 is read as the three values in steps of 1/255, rounded down. -/
theorem colour_round_trip [FloorRing K] {r g b : K} (hr : 0 ≤ r ∧ r ≤ 1) (hg : 0 ≤ g ∧ g ≤ 1) (hb : 0 ≤ b ∧ b ≤ 1) :
    ∃ r' g' b' : ℕ, Spec.readColour (rgbHex r g b) = some (r', g', b') ∧ ((r' : K) ≤ 255 * r ∧ 255 * r < r' + 1) ∧ ((g' : K) ≤ 255 * g ∧ 255 * g < g' + 1) ∧
      ((b' : K) ≤ 255 * b ∧ 255 * b < b' + 1) := by
  obtain ⟨nr, hnr, er, r1, r2⟩ := truncate_spec hr.1 hr.2
  obtain ⟨ng, hng, eg, g1, g2⟩ := truncate_spec hg.1 hg.2
  obtain ⟨nb, hnb, eb, b1, b2⟩ := truncate_spec hb.1 hb.2
  obtain ⟨ra, rb, rx, ry, er', erx, ery, rfl⟩ := hex2_spec nr hnr
  obtain ⟨ga, gb, gx, gy, eg', egx, egy, rfl⟩ := hex2_spec ng hng
  obtain ⟨ba, bb, bx, bY, eb', ebx, eby, rfl⟩ := hex2_spec nb hnb
  refine ⟨_, _, _, ?_, ⟨r1, r2⟩, ⟨g1, g2⟩, b1, b2⟩
  unfold rgbHex
  rw [er, eg, eb, er', eg', eb']
  simp [Spec.readColour, erx, ery, egx, egy, ebx, eby]

example : rgbHex (1 : ℚ) (1 / 2) 0 = "#ff7f00".toList := by decide +kernel

/-- C99: colours outside of this range are not written as six digits. -/
theorem colour_range_violates : rgbHex (2 : ℚ) 0 0 = "#1fe0000".toList ∧ Spec.readColour (rgbHex (2 : ℚ) 0 0) = none := by decide +kernel

/-! ### Crop -/

/-- the crop: its first and last rows and columns, its pixels and its size -/
theorem crop_full {P : Type} (visible : P → Bool) {bitmap : List (List P)} {width : ℕ} (hw : ∀ row ∈ bitmap, row.length = width) {q : List (List P)}
    (h : crop visible bitmap width = some q) :
    ∃ r0 r1 c0 c1, (∀ i j p, Spec.pixel bitmap i j = some p → visible p = true → r0 ≤ i ∧ i ≤ r1 ∧ c0 ≤ j ∧ j ≤ c1) ∧
      (∃ j p, Spec.pixel bitmap r0 j = some p ∧ visible p = true) ∧ (∃ j p, Spec.pixel bitmap r1 j = some p ∧ visible p = true) ∧
      (∃ i p, Spec.pixel bitmap i c0 = some p ∧ visible p = true) ∧ (∃ i p, Spec.pixel bitmap i c1 = some p ∧ visible p = true) ∧
      (∀ i j, Spec.pixel q i j = if i + r0 < r1 ∧ j + c0 < c1 then Spec.pixel bitmap (i + r0) (j + c0) else none) ∧
      q.length = r1 - r0 ∧ ∀ row ∈ q, row.length = c1 - c0 := by
  unfold crop at h
  simp only [Option.bind_eq_some_iff, Option.map_eq_some_iff] at h
  obtain ⟨r0, h0, r1, h1, c0, g0, c1, g1, rfl⟩ := h
  rw [List.min?_eq_some_iff] at h0 g0
  rw [List.max?_eq_some_iff] at h1 g1
  have hR : ∀ i, i ∈ (List.range bitmap.length).filter (fun i => (bitmap.getD i []).any visible) ↔ ∃ j p, Spec.pixel bitmap i j = some p ∧ visible p = true := by
    intro i
    rw [List.mem_filter, List.mem_range, List.any_eq_true]
    unfold Spec.pixel
    constructor
    · rintro ⟨hi, p, hp, hv⟩
      rw [List.getD_eq_getElem _ _ hi] at hp
      obtain ⟨j, hj, e⟩ := List.mem_iff_getElem.1 hp
      exact ⟨j, p, by rw [List.getElem?_eq_getElem hi, Option.bind_some, List.getElem?_eq_getElem hj, e], hv⟩
    · rintro ⟨j, p, hp, hv⟩
      obtain ⟨row, hrow, hj⟩ := Option.bind_eq_some_iff.1 hp
      obtain ⟨hi, e⟩ := List.getElem?_eq_some_iff.1 hrow
      refine ⟨hi, p, ?_, hv⟩
      rw [List.getD_eq_getElem _ _ hi, e]
      exact List.mem_of_getElem? hj
  have hC : ∀ j, j ∈ (List.range width).filter (fun j => bitmap.any fun row => (row[j]?.map visible).getD false) ↔ ∃ i p, Spec.pixel bitmap i j = some p ∧ visible p = true := by
    intro j
    rw [List.mem_filter, List.mem_range, List.any_eq_true]
    unfold Spec.pixel
    constructor
    · rintro ⟨hj, row, hrow, hv⟩
      obtain ⟨i, hi, e⟩ := List.mem_iff_getElem.1 hrow
      have hj' : j < row.length := by rw [hw row hrow]; exact hj
      rw [List.getElem?_eq_getElem hj'] at hv
      exact ⟨i, row[j], by rw [List.getElem?_eq_getElem hi, Option.bind_some, e, List.getElem?_eq_getElem hj'], hv⟩
    · rintro ⟨i, p, hp, hv⟩
      obtain ⟨row, hrow, hj⟩ := Option.bind_eq_some_iff.1 hp
      have hm := List.mem_of_getElem? hrow
      obtain ⟨hj', -⟩ := List.getElem?_eq_some_iff.1 hj
      refine ⟨by rw [← hw row hm]; exact hj', row, hm, ?_⟩
      rw [hj]
      exact hv
  refine ⟨r0, r1, c0, c1, fun i j p hp hv => ?_, (hR r0).1 h0.1, (hR r1).1 h1.1, (hC c0).1 g0.1, (hC c1).1 g1.1, fun i j => ?_, ?_, ?_⟩
  · have a := (hR i).2 ⟨j, p, hp, hv⟩
    have b := (hC j).2 ⟨i, p, hp, hv⟩
    exact ⟨h0.2 i a, h1.2 i a, g0.2 j b, g1.2 j b⟩
  · unfold Spec.pixel
    rw [List.getElem?_map, List.getElem?_drop, List.getElem?_take, add_comm r0 i]
    by_cases hi : i + r0 < r1
    · rw [if_pos hi]
      cases bitmap[i + r0]? with
      | none => simp
      | some row =>
        simp only [Option.map_some, Option.bind_some]
        rw [List.getElem?_drop, List.getElem?_take, add_comm c0 j]
        simp only [hi, true_and]
    · rw [if_neg hi, if_neg (fun h => hi h.1)]
      rfl
  · have := List.mem_range.1 (List.mem_filter.1 h1.1).1
    rw [List.length_map, List.length_drop, List.length_take]
    omega
  · intro row hrow
    obtain ⟨x, hx, rfl⟩ := List.mem_map.1 hrow
    have := List.mem_range.1 (List.mem_filter.1 g1.1).1
    rw [List.length_drop, List.length_take, hw x (List.mem_of_mem_take (List.mem_of_mem_drop hx))]
    omega

/-- C100: visible pixels are never lost on the upper or left side: the crop starts at the first row and the first column with visible pixels. Each pixel of the crop is the pixel of the
picture moved by these. Missing: the last row and the last column with visible pixels are cut off, see `crop_violates`. -/
theorem crop_moves_partial {P : Type} (visible : P → Bool) {bitmap : List (List P)} {width : ℕ} (hw : ∀ row ∈ bitmap, row.length = width) {q : List (List P)}
    (h : crop visible bitmap width = some q) :
    ∃ r0 r1 c0 c1, (∀ i j p, Spec.pixel bitmap i j = some p → visible p = true → r0 ≤ i ∧ i ≤ r1 ∧ c0 ≤ j ∧ j ≤ c1) ∧
      (∃ j p, Spec.pixel bitmap r0 j = some p ∧ visible p = true) ∧ (∃ j p, Spec.pixel bitmap r1 j = some p ∧ visible p = true) ∧
      (∃ i p, Spec.pixel bitmap i c0 = some p ∧ visible p = true) ∧ (∃ i p, Spec.pixel bitmap i c1 = some p ∧ visible p = true) ∧
      ∀ i j, Spec.pixel q i j = if i + r0 < r1 ∧ j + c0 < c1 then Spec.pixel bitmap (i + r0) (j + c0) else none := by
  obtain ⟨r0, r1, c0, c1, a, b, c, d, e, f, -⟩ := crop_full visible hw h
  exact ⟨r0, r1, c0, c1, a, b, c, d, e, f⟩

/-- C100: whatever the picture, there is a visible pixel whose place is not in the crop: the last row with visible pixels is always lost. -/
theorem crop_violates {P : Type} (visible : P → Bool) {bitmap : List (List P)} {width : ℕ} (hw : ∀ row ∈ bitmap, row.length = width) {q : List (List P)}
    (h : crop visible bitmap width = some q) :
    ∃ r0 c0, (∀ i j p, Spec.pixel bitmap i j = some p → visible p = true → r0 ≤ i ∧ c0 ≤ j) ∧
      ∃ i j p, Spec.pixel bitmap i j = some p ∧ visible p = true ∧ Spec.pixel q (i - r0) (j - c0) = none := by
  obtain ⟨r0, r1, c0, c1, h1, -, ⟨j, p, hp, hv⟩, -, -, h2⟩ := crop_moves_partial visible hw h
  refine ⟨r0, c0, fun i j p hp hv => ⟨(h1 i j p hp hv).1, (h1 i j p hp hv).2.2.1⟩, r1, j, p, hp, hv, ?_⟩
  rw [h2, if_neg]
  have := h1 r1 j p hp hv
  omega

/-- C100: pictures with a visible pixel are cropped, other pictures raise. -/
theorem crop_some_iff {P : Type} (visible : P → Bool) {bitmap : List (List P)} {width : ℕ} (hw : ∀ row ∈ bitmap, row.length = width) :
    (∃ q, crop visible bitmap width = some q) ↔ ∃ i j p, Spec.pixel bitmap i j = some p ∧ visible p = true := by
  constructor
  · rintro ⟨q, h⟩
    obtain ⟨r0, -, -, -, -, ⟨j, p, hp, hv⟩, -⟩ := crop_moves_partial visible hw h
    exact ⟨r0, j, p, hp, hv⟩
  · rintro ⟨i, j, p, hp, hv⟩
    unfold Spec.pixel at hp
    obtain ⟨row, hrow, hj⟩ := Option.bind_eq_some_iff.1 hp
    obtain ⟨hi, e⟩ := List.getElem?_eq_some_iff.1 hrow
    have hm := List.mem_of_getElem? hrow
    obtain ⟨hj', -⟩ := List.getElem?_eq_some_iff.1 hj
    have hR : i ∈ (List.range bitmap.length).filter (fun i => (bitmap.getD i []).any visible) := by
      rw [List.mem_filter, List.mem_range, List.any_eq_true]
      refine ⟨hi, p, ?_, hv⟩
      rw [List.getD_eq_getElem _ _ hi, e]
      exact List.mem_of_getElem? hj
    have hC : j ∈ (List.range width).filter (fun j => bitmap.any fun row => (row[j]?.map visible).getD false) := by
      rw [List.mem_filter, List.mem_range, List.any_eq_true]
      refine ⟨by rw [← hw row hm]; exact hj', row, hm, ?_⟩
      rw [hj]
      exact hv
    have some_of : ∀ (l : List ℕ) (a : ℕ), a ∈ l → (∃ m, l.min? = some m) ∧ ∃ m, l.max? = some m := by
      intro l a ha
      constructor
      · cases hc : l.min? with
        | none => rw [List.min?_eq_none_iff.1 hc] at ha; cases ha
        | some m => exact ⟨m, rfl⟩
      · cases hc : l.max? with
        | none => rw [List.max?_eq_none_iff.1 hc] at ha; cases ha
        | some m => exact ⟨m, rfl⟩
    obtain ⟨⟨r0, h0⟩, r1, h1⟩ := some_of _ _ hR
    obtain ⟨⟨c0, g0⟩, c1, g1⟩ := some_of _ _ hC
    unfold crop
    simp only [h0, h1, g0, g1]
    exact ⟨_, rfl⟩

/-- a picture with two by two visible pixels keeps one of them, a picture with one visible pixel keeps none -/
example : crop (fun p : ℕ => p ≠ 0) [[0, 0, 0], [0, 1, 2], [0, 3, 4]] 3 = some [[1]] ∧ crop (fun p : ℕ => p ≠ 0) [[0, 0], [0, 5]] 2 = some [] := by decide

end Splinepy.Svg
