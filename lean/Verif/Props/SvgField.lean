import Verif.Model.SvgField
import Verif.Props.SvgPicture
import Verif.Props.Png

/-!
C154: the picture of a field in an SVG file.
-/
namespace Splinepy.Svg

/-! ### Specification -/

/-- A colour: red, green, blue. -/
abbrev Spec.Colour := UInt8 × UInt8 × UInt8

/-- White. -/
def Spec.white : Spec.Colour := (255, 255, 255)

/-- The screenshot of a scene: for each pixel the colour that is drawn there, if there is one, on a white background. -/
def Spec.screenshot (scene : List (List (Option Spec.Colour))) : List (List (List UInt8)) :=
  scene.map fun row => row.map fun p => [(p.getD white).1, (p.getD white).2.1, (p.getD white).2.2]

/-- What a viewer should see: the drawn colour, or nothing. -/
def Spec.shown (p : Option Spec.Colour) : List UInt8 :=
  match p with
  | some (r, g, b) => [r, g, b, 255]
  | none => [255, 255, 255, 0]

/-- The four bytes of the pixel in row `i` and column `j` of a picture with `width` columns. -/
def Spec.bytesAt (buf : List UInt8) (width i j : ℕ) : List UInt8 := (buf.drop ((i * width + j) * 4)).take 4

/-! ### Lemmas -/

theorem flatten_drop_take {α : Type} {n : ℕ} : ∀ (l : List (List α)), (∀ x ∈ l, x.length = n) → ∀ k, (l.flatten.drop (k * n)).take n = l.getD k []
  | [], _, k => by simp
  | x :: l, h, 0 => by
    have hx := h x (List.mem_cons_self ..)
    simp only [List.flatten_cons, Nat.zero_mul, List.drop_zero, List.getD_cons_zero]
    rw [← hx, List.take_left]
  | x :: l, h, k + 1 => by
    have hx := h x (List.mem_cons_self ..)
    have ih := flatten_drop_take l (fun y hy => h y (List.mem_cons_of_mem _ hy)) k
    simp only [List.flatten_cons, List.getD_cons_succ]
    rw [show (k + 1) * n = x.length + k * n by rw [hx]; ring, List.drop_append, List.drop_of_length_le (by omega), List.nil_append, show x.length + k * n - x.length = k * n by omega]
    exact ih

theorem flatten_getElem? {α : Type} {n : ℕ} (l : List (List α)) (h : ∀ x ∈ l, x.length = n) (i j : ℕ) (hj : j < n) : l.flatten[i * n + j]? = l[i]?.bind (·[j]?) := by
  have := flatten_drop_take l h i
  have e : ((l.flatten.drop (i * n)).take n)[j]? = (l.getD i [])[j]? := by rw [this]
  rw [List.getElem?_take, if_pos hj, List.getElem?_drop] at e
  rw [e, List.getD_eq_getElem?_getD]
  cases l[i]? <;> simp

theorem flatten_length_const {α : Type} {n : ℕ} : ∀ (l : List (List α)), (∀ x ∈ l, x.length = n) → l.flatten.length = l.length * n
  | [], _ => by simp
  | x :: l, h => by
    rw [List.flatten_cons, List.length_append, flatten_length_const l (fun y hy => h y (List.mem_cons_of_mem _ hy)), h x (List.mem_cons_self ..), List.length_cons]
    ring

theorem mem_columns {P : Type} (visible : P → Bool) {bitmap : List (List P)} {width : ℕ} (hw : ∀ row ∈ bitmap, row.length = width) (j : ℕ) :
    j ∈ (List.range width).filter (fun j => bitmap.any fun row => (row[j]?.map visible).getD false) ↔ ∃ i p, Spec.pixel bitmap i j = some p ∧ visible p = true := by
  rw [List.mem_filter, List.mem_range, List.any_eq_true]
  unfold Spec.pixel
  constructor
  · rintro ⟨hj, row, hrow, hv⟩
    obtain ⟨i, hi, e⟩ := List.mem_iff_getElem.1 hrow
    have hj' : j < row.length := by rw [hw row hrow]; exact hj
    rw [List.getElem?_eq_getElem hj'] at hv
    exact ⟨i, row[j], by rw [List.getElem?_eq_getElem hi, Option.bind_some, e, List.getElem?_eq_getElem hj'], hv⟩
  · rintro ⟨i, p, hp, hv⟩
    obtain ⟨row, hrow, hj⟩ := Option.bind_eq_some_iff.1 hp
    have hm := List.mem_of_getElem? hrow
    obtain ⟨hj', -⟩ := List.getElem?_eq_some_iff.1 hj
    refine ⟨by rw [← hw row hm]; exact hj', row, hm, ?_⟩
    rw [hj]
    exact hv

theorem cropWidth_eq {P : Type} (visible : P → Bool) {bitmap : List (List P)} {width w c0 c1 : ℕ} (hw : ∀ row ∈ bitmap, row.length = width) (h : cropWidth visible bitmap width = some w)
    (hb : ∀ i j p, Spec.pixel bitmap i j = some p → visible p = true → c0 ≤ j ∧ j ≤ c1) (h0 : ∃ i p, Spec.pixel bitmap i c0 = some p ∧ visible p = true)
    (h1 : ∃ i p, Spec.pixel bitmap i c1 = some p ∧ visible p = true) : w = c1 - c0 := by
  unfold cropWidth at h
  simp only [Option.bind_eq_some_iff, Option.map_eq_some_iff] at h
  obtain ⟨d0, g0, d1, g1, rfl⟩ := h
  rw [List.min?_eq_some_iff] at g0
  rw [List.max?_eq_some_iff] at g1
  obtain ⟨i, p, hp, hv⟩ := (mem_columns visible hw d0).1 g0.1
  obtain ⟨i', p', hp', hv'⟩ := (mem_columns visible hw d1).1 g1.1
  have a := hb _ _ _ hp hv
  have b := hb _ _ _ hp' hv'
  have c := g0.2 _ ((mem_columns visible hw c0).2 h0)
  have d := g1.2 _ ((mem_columns visible hw c1).2 h1)
  omega

theorem writePng_width {compress : List UInt8 → List UInt8} {crc32 : List UInt8 → ℕ} {buf file : List UInt8} {h w : ℕ} (hf : Png.writePng compress crc32 buf [h, w, 4] = some file) : 0 < w := by
  rcases Nat.eq_zero_or_pos w with rfl | h
  · simp [Png.writePng, Png.rawData] at hf
  · exact h

theorem pixel_mem {P : Type} {bitmap : List (List P)} {i j : ℕ} {p : P} (h : Spec.pixel bitmap i j = some p) : ∃ row ∈ bitmap, p ∈ row := by
  obtain ⟨row, hrow, hj⟩ := Option.bind_eq_some_iff.1 h
  exact ⟨row, List.mem_of_getElem? hrow, List.mem_of_getElem? hj⟩

/-- the file of a bitmap with an alpha layer holds the pixels from the first row and column with opaque pixels on -/
theorem file_pixels {compress : List UInt8 → List UInt8} {decompress : List UInt8 → Option (List UInt8)} (hz : ∀ x, decompress (compress x) = some x) {crc32 : List UInt8 → ℕ}
    {bitmap b : List (List (List UInt8))} {channels width : ℕ} {file : List UInt8} (hb : withAlpha channels bitmap = some b) (hw : ∀ row ∈ b, row.length = width)
    (hp : ∀ row ∈ b, ∀ p ∈ row, p.length = 4) (h : fieldFile compress crc32 channels bitmap width = some file) :
    ∃ r0 r1 c0 c1, (∀ i j p, Spec.pixel b i j = some p → isOpaque p = true → r0 ≤ i ∧ i ≤ r1 ∧ c0 ≤ j ∧ j ≤ c1) ∧
      (∃ j p, Spec.pixel b r0 j = some p ∧ isOpaque p = true) ∧ (∃ j p, Spec.pixel b r1 j = some p ∧ isOpaque p = true) ∧
      (∃ i p, Spec.pixel b i c0 = some p ∧ isOpaque p = true) ∧ (∃ i p, Spec.pixel b i c1 = some p ∧ isOpaque p = true) ∧ c0 < c1 ∧
      ∃ buf, Png.Spec.readPng decompress crc32 file = some (buf, [r1 - r0, c1 - c0, 4]) ∧
        ∀ i j, i < r1 - r0 → j < c1 - c0 → Spec.pixel b (i + r0) (j + c0) = some (Spec.bytesAt buf (c1 - c0) i j) := by
  unfold fieldFile at h
  simp only [hb, Option.bind_some, Option.bind_eq_some_iff] at h
  obtain ⟨q, hq, w, hcw, hf⟩ := h
  obtain ⟨r0, r1, c0, c1, ha, h0, h1, h2, h3, hpix, hl, hr⟩ := crop_full isOpaque hw hq
  have ew := cropWidth_eq isOpaque hw hcw (fun i j p a b => ⟨(ha i j p a b).2.2.1, (ha i j p a b).2.2.2⟩) h2 h3
  have hpos := writePng_width hf
  subst ew
  rw [hl] at hf
  have hq4 : ∀ p ∈ q.flatten, p.length = 4 := by
    intro p hp'
    obtain ⟨row, hrow, hpr⟩ := List.mem_flatten.1 hp'
    obtain ⟨i, hi, e⟩ := List.mem_iff_getElem.1 hrow
    obtain ⟨j, hj, e'⟩ := List.mem_iff_getElem.1 hpr
    have e2 : Spec.pixel q i j = some p := by
      unfold Spec.pixel
      rw [List.getElem?_eq_getElem hi, Option.bind_some, e, List.getElem?_eq_getElem hj, e']
    rw [hpix] at e2
    split at e2
    · obtain ⟨row', hrow', hp2⟩ := pixel_mem e2
      exact hp _ hrow' _ hp2
    · cases e2
  have hlen : q.flatten.flatten.length = (r1 - r0) * (c1 - c0) * 4 := by
    rw [flatten_length_const _ hq4, flatten_length_const _ hr, hl]
  refine ⟨r0, r1, c0, c1, ha, h0, h1, h2, h3, by omega, q.flatten.flatten, Png.png_round_trip hz crc32 _ _ _ hlen hf, fun i j hi hj => ?_⟩
  have e1 := hpix i j
  rw [if_pos ⟨by omega, by omega⟩] at e1
  have e2 : q.flatten[i * (c1 - c0) + j]? = Spec.pixel b (i + r0) (j + c0) := by rw [flatten_getElem? q hr i j hj, ← e1]; rfl
  have hlt : i * (c1 - c0) + j < q.flatten.length := by
    rw [flatten_length_const _ hr, hl]
    calc i * (c1 - c0) + j < i * (c1 - c0) + (c1 - c0) := by omega
      _ = (i + 1) * (c1 - c0) := by ring
      _ ≤ (r1 - r0) * (c1 - c0) := Nat.mul_le_mul_right _ hi
  unfold Spec.bytesAt
  rw [flatten_drop_take _ hq4, ← e2, List.getElem?_eq_getElem hlt, List.getD_eq_getElem _ _ hlt]

/-! ### The picture -/

theorem screenshot_pixel (scene : List (List (Option Spec.Colour))) (i j : ℕ) :
    Spec.pixel (Spec.screenshot scene) i j = (Spec.pixel scene i j).map fun p => [(p.getD Spec.white).1, (p.getD Spec.white).2.1, (p.getD Spec.white).2.2] := by
  unfold Spec.pixel Spec.screenshot
  rw [List.getElem?_map]
  cases scene[i]? <;> simp

theorem withAlpha_pixel {bitmap b : List (List (List UInt8))} (h : withAlpha 3 bitmap = some b) (i j : ℕ) :
    Spec.pixel b i j = (Spec.pixel bitmap i j).map fun p => p ++ [if p.all (· == 255) then 0 else 255] := by
  simp only [withAlpha, if_true, Option.some.injEq] at h
  subst h
  unfold Spec.pixel
  rw [List.getElem?_map]
  cases bitmap[i]? <;> simp

/-- the four channels of a pixel of a scene -/
theorem scene_pixel {scene : List (List (Option Spec.Colour))} {b : List (List (List UInt8))} (h : withAlpha 3 (Spec.screenshot scene) = some b) (i j : ℕ) :
    Spec.pixel b i j = (Spec.pixel scene i j).map fun p => if p = some Spec.white then Spec.shown none else Spec.shown p := by
  rw [withAlpha_pixel h, screenshot_pixel, Option.map_map]
  congr 1
  funext p
  rcases p with - | ⟨r, g, c⟩
  · rfl
  · by_cases hw : r = 255 ∧ g = 255 ∧ c = 255
    · obtain ⟨rfl, rfl, rfl⟩ := hw
      rfl
    · have : some (r, g, c) ≠ some Spec.white := by
        intro e
        apply hw
        simpa [Spec.white] using e
      rw [if_neg this]
      have e : ([r, g, c].all (· == 255)) = false := by
        rw [Bool.eq_false_iff]
        intro e
        apply hw
        simpa using e
      simp only [Function.comp, Option.getD_some, Spec.shown, List.cons_append, List.nil_append, e, Bool.false_eq_true, if_false]

theorem scene_opaque (p : Option Spec.Colour) : isOpaque (if p = some Spec.white then Spec.shown none else Spec.shown p) = true ↔ ∃ c, p = some c ∧ c ≠ Spec.white := by
  rcases p with - | c
  · simp [Spec.shown, isOpaque]
  · by_cases h : c = Spec.white
    · subst h
      simp [Spec.shown, isOpaque]
    · simp [h, Spec.shown, isOpaque]

/-- the bitmap of a scene: its size, and its opaque pixels are those that are drawn and not white -/
theorem scene_facts {scene : List (List (Option Spec.Colour))} {width : ℕ} (hw : ∀ row ∈ scene, row.length = width) :
    ∃ b, withAlpha 3 (Spec.screenshot scene) = some b ∧ (∀ row ∈ b, row.length = width) ∧ (∀ row ∈ b, ∀ p ∈ row, p.length = 4) ∧
      (∀ i j, (∃ p, Spec.pixel b i j = some p ∧ isOpaque p = true) ↔ ∃ c, Spec.pixel scene i j = some (some c) ∧ c ≠ Spec.white) ∧ b.length = scene.length := by
  obtain ⟨b, hb⟩ : ∃ b, withAlpha 3 (Spec.screenshot scene) = some b := ⟨_, rfl⟩
  have hpix := scene_pixel hb
  have hlen : ∀ row ∈ b, row.length = width := by
    simp only [withAlpha, if_true, Option.some.injEq, Spec.screenshot] at hb
    subst hb
    intro row hrow
    simp only [List.mem_map, exists_exists_and_eq_and] at hrow
    obtain ⟨x, hx, rfl⟩ := hrow
    rw [List.length_map, List.length_map, hw x hx]
  have h4 : ∀ row ∈ b, ∀ p ∈ row, p.length = 4 := by
    simp only [withAlpha, if_true, Option.some.injEq, Spec.screenshot] at hb
    subst hb
    intro row hrow p hp
    simp only [List.mem_map, exists_exists_and_eq_and] at hrow
    obtain ⟨x, hx, rfl⟩ := hrow
    simp only [List.mem_map, exists_exists_and_eq_and] at hp
    obtain ⟨y, hy, rfl⟩ := hp
    rfl
  have vis : ∀ i j, (∃ p, Spec.pixel b i j = some p ∧ isOpaque p = true) ↔ ∃ c, Spec.pixel scene i j = some (some c) ∧ c ≠ Spec.white := by
    intro i j
    rw [hpix]
    cases hs : Spec.pixel scene i j with
    | none => simp
    | some p =>
      simp only [Option.map_some, Option.some.injEq, exists_eq_left', scene_opaque]
  refine ⟨b, hb, hlen, h4, vis, ?_⟩
  simp only [withAlpha, if_true, Option.some.injEq, Spec.screenshot] at hb
  subst hb
  simp

/-- what is in the file of the picture of any scene: white counts as not drawn -/
theorem field_file {compress : List UInt8 → List UInt8} {decompress : List UInt8 → Option (List UInt8)} (hz : ∀ x, decompress (compress x) = some x) {crc32 : List UInt8 → ℕ}
    {scene : List (List (Option Spec.Colour))} {width : ℕ} (hw : ∀ row ∈ scene, row.length = width) {file : List UInt8}
    (h : fieldFile compress crc32 3 (Spec.screenshot scene) width = some file) :
    ∃ r0 r1 c0 c1, (∀ i j c, Spec.pixel scene i j = some (some c) → c ≠ Spec.white → r0 ≤ i ∧ i ≤ r1 ∧ c0 ≤ j ∧ j ≤ c1) ∧
      (∃ j c, Spec.pixel scene r0 j = some (some c) ∧ c ≠ Spec.white) ∧ (∃ j c, Spec.pixel scene r1 j = some (some c) ∧ c ≠ Spec.white) ∧
      (∃ i c, Spec.pixel scene i c0 = some (some c) ∧ c ≠ Spec.white) ∧ (∃ i c, Spec.pixel scene i c1 = some (some c) ∧ c ≠ Spec.white) ∧ c0 < c1 ∧
      ∃ buf, Png.Spec.readPng decompress crc32 file = some (buf, [r1 - r0, c1 - c0, 4]) ∧
        ∀ i j, i < r1 - r0 → j < c1 - c0 →
          ∃ p, Spec.pixel scene (i + r0) (j + c0) = some p ∧ Spec.bytesAt buf (c1 - c0) i j = if p = some Spec.white then Spec.shown none else Spec.shown p := by
  obtain ⟨b, hb, hlen, h4, vis, -⟩ := scene_facts hw
  have hpix := scene_pixel hb
  obtain ⟨r0, r1, c0, c1, ha, ⟨j0, h0⟩, ⟨j1, h1⟩, ⟨i0, h2⟩, ⟨i1, h3⟩, hc, buf, hbuf, hall⟩ := file_pixels hz hb hlen h4 h
  refine ⟨r0, r1, c0, c1, fun i j c hs hne => ?_, ⟨j0, (vis _ _).1 h0⟩, ⟨j1, (vis _ _).1 h1⟩, ⟨i0, (vis _ _).1 h2⟩, ⟨i1, (vis _ _).1 h3⟩, hc, buf, hbuf, fun i j hi hj => ?_⟩
  · obtain ⟨p, hp, ho⟩ := (vis i j).2 ⟨c, hs, hne⟩
    exact ha i j p hp ho
  · have e := hall i j hi hj
    rw [hpix] at e
    obtain ⟨p, hp, e⟩ := Option.map_eq_some_iff.1 e
    exact ⟨p, hp, e.symm⟩

/-- C154: where no drawn pixel is white, the file holds a picture that starts at the first row and the first column that is drawn, and each of its pixels is the drawn colour, opaque, or
transparent where nothing is drawn. Missing: the last row and the last column that are drawn are lost, and so are white pixels, see `field_white_violates`. -/
theorem field_shown_partial {compress : List UInt8 → List UInt8} {decompress : List UInt8 → Option (List UInt8)} (hz : ∀ x, decompress (compress x) = some x) {crc32 : List UInt8 → ℕ}
    {scene : List (List (Option Spec.Colour))} {width : ℕ} (hw : ∀ row ∈ scene, row.length = width) (hn : ∀ row ∈ scene, some Spec.white ∉ row) {file : List UInt8}
    (h : fieldFile compress crc32 3 (Spec.screenshot scene) width = some file) :
    ∃ r0 r1 c0 c1, (∀ i j c, Spec.pixel scene i j = some (some c) → r0 ≤ i ∧ i ≤ r1 ∧ c0 ≤ j ∧ j ≤ c1) ∧
      (∃ j c, Spec.pixel scene r0 j = some (some c)) ∧ (∃ j c, Spec.pixel scene r1 j = some (some c)) ∧
      (∃ i c, Spec.pixel scene i c0 = some (some c)) ∧ (∃ i c, Spec.pixel scene i c1 = some (some c)) ∧
      ∃ buf, Png.Spec.readPng decompress crc32 file = some (buf, [r1 - r0, c1 - c0, 4]) ∧
        ∀ i j, i < r1 - r0 → j < c1 - c0 → (Spec.pixel scene (i + r0) (j + c0)).map Spec.shown = some (Spec.bytesAt buf (c1 - c0) i j) := by
  have hne : ∀ i j p, Spec.pixel scene i j = some p → p ≠ some Spec.white := by
    rintro i j p hp rfl
    obtain ⟨row, hrow, hm⟩ := pixel_mem hp
    exact hn row hrow hm
  obtain ⟨r0, r1, c0, c1, ha, ⟨j0, d0, h0, -⟩, ⟨j1, d1, h1, -⟩, ⟨i0, d2, h2, -⟩, ⟨i1, d3, h3, -⟩, -, buf, hbuf, hall⟩ := field_file hz hw h
  refine ⟨r0, r1, c0, c1, fun i j c hs => ha i j c hs fun e => hne i j _ hs (by rw [e]), ⟨j0, d0, h0⟩, ⟨j1, d1, h1⟩, ⟨i0, d2, h2⟩, ⟨i1, d3, h3⟩, buf, hbuf, fun i j hi hj => ?_⟩
  obtain ⟨p, hp, e⟩ := hall i j hi hj
  rw [hp, e, if_neg (hne _ _ _ hp)]
  rfl

/-- C154: a pixel that is drawn white is written as transparent, although it lies between drawn pixels. -/
theorem field_white_violates {compress : List UInt8 → List UInt8} {decompress : List UInt8 → Option (List UInt8)} (hz : ∀ x, decompress (compress x) = some x) {crc32 : List UInt8 → ℕ}
    {file : List UInt8} (h : fieldFile compress crc32 3 (Spec.screenshot [[some (1, 2, 3), some Spec.white, some (1, 2, 3)], [some (1, 2, 3), none, none]]) 3 = some file) :
    ∃ buf, Png.Spec.readPng decompress crc32 file = some (buf, [1, 2, 4]) ∧ Spec.bytesAt buf 2 0 0 = Spec.shown (some (1, 2, 3)) ∧
      Spec.bytesAt buf 2 0 1 = Spec.shown none ∧ Spec.shown none ≠ Spec.shown (some Spec.white) := by
  have hnw : ((1, 2, 3) : Spec.Colour) ≠ Spec.white := by decide
  obtain ⟨r0, r1, c0, c1, ha, ⟨j0, d0, h0, -⟩, ⟨j1, d1, h1, -⟩, ⟨i0, d2, h2, -⟩, ⟨i1, d3, h3, -⟩, hc, buf, hbuf, hall⟩ := field_file hz (by decide) h
  have a := ha 0 0 (1, 2, 3) rfl hnw
  have b := ha 0 2 (1, 2, 3) rfl hnw
  have c := ha 1 0 (1, 2, 3) rfl hnw
  have hr1 : r1 ≤ 1 := by
    by_contra hh
    obtain ⟨row, hrow, -⟩ := Option.bind_eq_some_iff.1 h1
    obtain ⟨hl, -⟩ := List.getElem?_eq_some_iff.1 hrow
    simp at hl
    omega
  have hc1 : c1 ≤ 2 := by
    by_contra hh
    obtain ⟨row, hrow, hj⟩ := Option.bind_eq_some_iff.1 h3
    obtain ⟨hl, -⟩ := List.getElem?_eq_some_iff.1 hj
    have : row.length = 3 := (by decide : ∀ row ∈ [[some ((1, 2, 3) : Spec.Colour), some Spec.white, some (1, 2, 3)], [some (1, 2, 3), none, none]], row.length = 3) row
      (List.mem_of_getElem? hrow)
    omega
  obtain rfl : r0 = 0 := by omega
  obtain rfl : c0 = 0 := by omega
  obtain rfl : r1 = 1 := by omega
  obtain rfl : c1 = 2 := by omega
  refine ⟨buf, hbuf, ?_, ?_, by decide⟩
  · obtain ⟨p, hp, e⟩ := hall 0 0 (by omega) (by omega)
    obtain rfl : some (1, 2, 3) = p := by simpa [Spec.pixel] using hp
    rw [e, if_neg (by decide)]
  · obtain ⟨p, hp, e⟩ := hall 0 1 (by omega) (by omega)
    obtain rfl : some Spec.white = p := by simpa [Spec.pixel] using hp
    rw [e, if_pos rfl]

theorem readRows_length {w : ℕ} : ∀ (n : ℕ) {raw buf : List UInt8}, Png.Spec.readRows w n raw = some buf → raw.length = n * (w + 1)
  | 0, raw, buf, h => by
    cases raw with
    | nil => simp
    | cons a l => simp [Png.Spec.readRows] at h
  | n + 1, raw, buf, h => by
    simp only [Png.Spec.readRows] at h
    split at h
    · rename_i rest
      split at h
      · obtain ⟨b, hb, -⟩ := Option.map_eq_some_iff.1 h
        have := readRows_length n hb
        rw [List.length_drop] at this
        rw [List.length_cons, Nat.succ_mul, ← this]
        omega
      · cases h
    · cases h

/-- C154: the picture is written exactly if pixels of at least two columns are drawn, not counting white ones, as long as the sizes fit into the format. -/
theorem field_written_iff {compress : List UInt8 → List UInt8} {decompress : List UInt8 → Option (List UInt8)} (hz : ∀ x, decompress (compress x) = some x) (crc32 : List UInt8 → ℕ)
    {scene : List (List (Option Spec.Colour))} {width : ℕ} (hw : ∀ row ∈ scene, row.length = width) (hwidth : width < 2 ^ 32) (hheight : scene.length < 2 ^ 32)
    (hcomp : ∀ x : List UInt8, x.length ≤ scene.length * (width * 4 + 1) → (compress x).length < 2 ^ 32) :
    (∃ file, fieldFile compress crc32 3 (Spec.screenshot scene) width = some file) ↔
      ∃ i j c i' j' c', Spec.pixel scene i j = some (some c) ∧ c ≠ Spec.white ∧ Spec.pixel scene i' j' = some (some c') ∧ c' ≠ Spec.white ∧ j < j' := by
  constructor
  · rintro ⟨file, h⟩
    obtain ⟨r0, r1, c0, c1, -, -, -, ⟨i0, d2, h2, n2⟩, ⟨i1, d3, h3, n3⟩, hlt, -⟩ := field_file hz hw h
    exact ⟨i0, c0, d2, i1, c1, d3, h2, n2, h3, n3, hlt⟩
  · rintro ⟨i, j, c, i', j', c', hp, hn, hp', hn', hlt⟩
    obtain ⟨b, hb, hlen, h4, vis, hbl⟩ := scene_facts hw
    obtain ⟨p, hpb, ho⟩ := (vis i j).2 ⟨c, hp, hn⟩
    obtain ⟨p', hpb', ho'⟩ := (vis i' j').2 ⟨c', hp', hn'⟩
    obtain ⟨q, hq⟩ := (crop_some_iff isOpaque hlen).2 ⟨i, j, p, hpb, ho⟩
    obtain ⟨r0, r1, c0, c1, ha, h0, ⟨k1, p1, hk1, -⟩, h2, ⟨i1, p3, h3, o3⟩, hpix, hl, hr⟩ := crop_full isOpaque hlen hq
    have e1 := ha _ _ _ hpb ho
    have e2 := ha _ _ _ hpb' ho'
    have hr1 : r1 < scene.length := by
      obtain ⟨row, hrow, -⟩ := Option.bind_eq_some_iff.1 hk1
      obtain ⟨hl', -⟩ := List.getElem?_eq_some_iff.1 hrow
      omega
    have hc1 : c1 < width := by
      obtain ⟨row, hrow, hj⟩ := Option.bind_eq_some_iff.1 h3
      obtain ⟨hl', -⟩ := List.getElem?_eq_some_iff.1 hj
      rw [hlen row (List.mem_of_getElem? hrow)] at hl'
      exact hl'
    obtain ⟨w, hcw⟩ : ∃ w, cropWidth isOpaque b width = some w := by
      unfold cropWidth
      have hm := (mem_columns isOpaque hlen j).2 ⟨i, p, hpb, ho⟩
      cases h5 : ((List.range width).filter fun j => b.any fun row => (row[j]?.map isOpaque).getD false).min? with
      | none => rw [List.min?_eq_none_iff.1 h5] at hm; cases hm
      | some m =>
        cases h6 : ((List.range width).filter fun j => b.any fun row => (row[j]?.map isOpaque).getD false).max? with
        | none => rw [List.max?_eq_none_iff.1 h6] at hm; cases hm
        | some m' => exact ⟨m' - m, by simp only [h5, h6, Option.bind_some, Option.map_some]⟩
    have ew := cropWidth_eq isOpaque hlen hcw (fun i j p a b => ⟨(ha i j p a b).2.2.1, (ha i j p a b).2.2.2⟩) h2 ⟨i1, p3, h3, o3⟩
    subst ew
    have hq4 : ∀ p ∈ q.flatten, p.length = 4 := by
      intro p hp'
      obtain ⟨row, hrow, hpr⟩ := List.mem_flatten.1 hp'
      obtain ⟨i, hi, e⟩ := List.mem_iff_getElem.1 hrow
      obtain ⟨j, hj, e'⟩ := List.mem_iff_getElem.1 hpr
      have e2 : Spec.pixel q i j = some p := by
        unfold Spec.pixel
        rw [List.getElem?_eq_getElem hi, Option.bind_some, e, List.getElem?_eq_getElem hj, e']
      rw [hpix] at e2
      split at e2
      · obtain ⟨row', hrow', hp2⟩ := pixel_mem e2
        exact h4 _ hrow' _ hp2
      · cases e2
    have hbuf : q.flatten.flatten.length = q.length * (c1 - c0) * 4 := by rw [flatten_length_const _ hq4, flatten_length_const _ hr]
    unfold fieldFile
    simp only [hb, hq, hcw, Option.bind_some]
    refine (Png.png_written_iff compress crc32 _ _ _ _ hbuf).2 ⟨rfl, by omega, by omega, by omega, fun raw hraw => hcomp raw ?_⟩
    obtain ⟨raw', h7, h8⟩ := Png.rawData_rows (by omega : 0 < c1 - c0) hbuf
    rw [hraw, Option.some.injEq] at h7
    subst h7
    rw [readRows_length _ h8]
    exact Nat.mul_le_mul (by omega) (by omega)

/-- C154: a field that is drawn in a single column of pixels is not exported at all. -/
theorem field_column_violates {compress : List UInt8 → List UInt8} {decompress : List UInt8 → Option (List UInt8)} (hz : ∀ x, decompress (compress x) = some x) (crc32 : List UInt8 → ℕ)
    {scene : List (List (Option Spec.Colour))} {width column : ℕ} (hw : ∀ row ∈ scene, row.length = width) (hc : ∀ i j c, Spec.pixel scene i j = some (some c) → j = column) :
    fieldFile compress crc32 3 (Spec.screenshot scene) width = none := by
  cases h : fieldFile compress crc32 3 (Spec.screenshot scene) width with
  | none => rfl
  | some file =>
    obtain ⟨r0, r1, c0, c1, -, -, -, ⟨i0, d2, h2, -⟩, ⟨i1, d3, h3, -⟩, hlt, -⟩ := field_file hz hw h
    have := hc _ _ _ h2
    have := hc _ _ _ h3
    omega

/-- C154: a field that is drawn in a single row of pixels is exported as a picture without rows. -/
theorem field_row_violates {compress : List UInt8 → List UInt8} {decompress : List UInt8 → Option (List UInt8)} (hz : ∀ x, decompress (compress x) = some x) {crc32 : List UInt8 → ℕ}
    {scene : List (List (Option Spec.Colour))} {width line : ℕ} (hw : ∀ row ∈ scene, row.length = width) (hr : ∀ i j c, Spec.pixel scene i j = some (some c) → i = line) {file : List UInt8}
    (h : fieldFile compress crc32 3 (Spec.screenshot scene) width = some file) : ∃ buf w, Png.Spec.readPng decompress crc32 file = some (buf, [0, w, 4]) := by
  obtain ⟨r0, r1, c0, c1, -, ⟨j0, d0, h0, -⟩, ⟨j1, d1, h1, -⟩, -, -, -, buf, hbuf, -⟩ := field_file hz hw h
  have e0 := hr _ _ _ h0
  have e1 := hr _ _ _ h1
  rw [e0, e1, Nat.sub_self] at hbuf
  exact ⟨buf, _, hbuf⟩

/-- a picture of one row is written -/
example : (fieldFile id (fun _ => 0) 3 (Spec.screenshot [[none, none], [some (1, 2, 3), some (4, 5, 6)]]) 2).isSome = true := by decide +kernel

/-- C154: screenshots with other than three or four channels raise, and those with four keep their own alpha layer. -/
theorem field_channels (compress : List UInt8 → List UInt8) (crc32 : List UInt8 → ℕ) (channels : ℕ) (bitmap : List (List (List UInt8))) (width : ℕ) :
    (channels ≠ 3 → channels ≠ 4 → fieldFile compress crc32 channels bitmap width = none) ∧
    ∀ {decompress : List UInt8 → Option (List UInt8)} (_ : ∀ x, decompress (compress x) = some x) (_ : ∀ row ∈ bitmap, row.length = width) (_ : ∀ row ∈ bitmap, ∀ p ∈ row, p.length = 4)
      {file : List UInt8} (_ : fieldFile compress crc32 4 bitmap width = some file), ∃ r0 r1 c0 c1 buf, Png.Spec.readPng decompress crc32 file = some (buf, [r1 - r0, c1 - c0, 4]) ∧
        (∀ i j p, Spec.pixel bitmap i j = some p → p.getLast? ≠ some 0 → r0 ≤ i ∧ i ≤ r1 ∧ c0 ≤ j ∧ j ≤ c1) ∧
        (∃ j p, Spec.pixel bitmap r0 j = some p ∧ p.getLast? ≠ some 0) ∧ (∃ j p, Spec.pixel bitmap r1 j = some p ∧ p.getLast? ≠ some 0) ∧
        (∃ i p, Spec.pixel bitmap i c0 = some p ∧ p.getLast? ≠ some 0) ∧ (∃ i p, Spec.pixel bitmap i c1 = some p ∧ p.getLast? ≠ some 0) ∧
        ∀ i j, i < r1 - r0 → j < c1 - c0 → Spec.pixel bitmap (i + r0) (j + c0) = some (Spec.bytesAt buf (c1 - c0) i j) := by
  have hop : ∀ p : List UInt8, p.length = 4 → (isOpaque p = true ↔ p.getLast? ≠ some 0) := by
    intro p hl
    unfold isOpaque
    rw [bne_iff_ne]
    cases p with
    | nil => simp at hl
    | cons a l => rw [List.getLastD_cons, List.getLast?_cons]; cases l <;> simp
  refine ⟨fun h3 h4 => by simp [fieldFile, withAlpha, h3, h4], ?_⟩
  intro decompress hz hw hp file h
  have hl : ∀ i j p, Spec.pixel bitmap i j = some p → p.length = 4 := fun i j p hpix => by
    obtain ⟨row, hrow, hm⟩ := pixel_mem hpix
    exact hp row hrow p hm
  obtain ⟨r0, r1, c0, c1, ha, ⟨j0, p0, h0, o0⟩, ⟨j1, p1, h1, o1⟩, ⟨i0, p2, h2, o2⟩, ⟨i1, p3, h3, o3⟩, -, buf, hbuf, hall⟩ := file_pixels hz (show withAlpha 4 bitmap = some bitmap from rfl) hw hp h
  exact ⟨r0, r1, c0, c1, buf, hbuf, fun i j p hpix hne => ha i j p hpix ((hop p (hl _ _ _ hpix)).2 hne), ⟨j0, p0, h0, (hop p0 (hl _ _ _ h0)).1 o0⟩, ⟨j1, p1, h1, (hop p1 (hl _ _ _ h1)).1 o1⟩,
    ⟨i0, p2, h2, (hop p2 (hl _ _ _ h2)).1 o2⟩, ⟨i1, p3, h3, (hop p3 (hl _ _ _ h3)).1 o3⟩, hall⟩

/-- C154: the picture covers the bounds of the spline in the view box, where y points down from the upper edge. -/
theorem field_place {K : Type} [Field K] (boxMinX boxMaxY xMin yMin xMax yMax : K) :
    let r := fieldPlace boxMinX boxMaxY xMin yMin xMax yMax
    place boxMinX boxMaxY [xMin, yMax] = (r.1, r.2.1) ∧ place boxMinX boxMaxY [xMax, yMin] = (r.1 + r.2.2.1, r.2.1 + r.2.2.2) := by
  simp only [fieldPlace, place]
  constructor
  · simp
  · simp

/-- a picture with a hole: two rows and two columns of it are kept -/
example : ((fieldFile id (fun _ => 0) 3 (Spec.screenshot [[none, none, none, none], [none, some (1, 2, 3), none, some (4, 5, 6)], [none, some (7, 8, 9), none, none], [none, none, some (1, 1, 1), none]])
    4).bind fun f => Png.Spec.readPng some (fun _ => 0) f) = some ([1, 2, 3, 255, 255, 255, 255, 0, 7, 8, 9, 255, 255, 255, 255, 0], [2, 2, 4]) := by decide +kernel

/-- the picture with a white pixel is written -/
example : (fieldFile id (fun _ => 0) 3 (Spec.screenshot [[some (1, 2, 3), some Spec.white, some (1, 2, 3)], [some (1, 2, 3), none, none]]) 3).isSome = true := by decide +kernel

/-- the sizes of this picture fit -/
example : (∀ row ∈ [[some ((1, 2, 3) : Spec.Colour), none], [none, some (4, 5, 6)]], row.length = 2) ∧ (∀ x : List UInt8, x.length ≤ 2 * (2 * 4 + 1) → (id x).length < 2 ^ 32) ∧
    (fieldFile id (fun _ => 0) 3 (Spec.screenshot [[some ((1, 2, 3) : Spec.Colour), none], [none, some (4, 5, 6)]]) 2).isSome = true :=
  ⟨by decide, fun x hx => lt_of_le_of_lt hx (by norm_num), by decide +kernel⟩

/-- a picture with its own alpha layer -/
example : ((fieldFile id (fun _ => 0) 4 [[[1, 2, 3, 9], [4, 5, 6, 0], [0, 0, 0, 1]], [[1, 1, 1, 1], [0, 0, 0, 0], [0, 0, 0, 0]]] 3).bind fun f => Png.Spec.readPng some (fun _ => 0) f) =
    some ([1, 2, 3, 9, 4, 5, 6, 0], [1, 2, 4]) := by decide +kernel

/-- a picture of one column -/
example : (∀ row ∈ [[none, some ((1, 2, 3) : Spec.Colour)], [none, some (4, 5, 6)]], row.length = 2) ∧
    fieldFile id (fun _ => 0) 3 (Spec.screenshot [[none, some ((1, 2, 3) : Spec.Colour)], [none, some (4, 5, 6)]]) 2 = none := by decide +kernel

end Splinepy.Svg
