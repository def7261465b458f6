import Verif.Model.Png
import Mathlib.Tactic.Linarith
import Mathlib.Tactic.Ring
import Mathlib.Tactic.NormNum

/-!
C93: a reader of PNG files gets back the bitmap that was written.
-/
namespace Splinepy.Png

/-! ### Specification: a reader of PNG files -/

/-- A number of four bytes, most significant first. -/
def Spec.readU32 : List UInt8 → Option (ℕ × List UInt8)
  | a :: b :: c :: d :: rest => some (((a.toNat * 256 + b.toNat) * 256 + c.toNat) * 256 + d.toNat, rest)
  | _ => none

/-- A chunk: length of the data, tag, data, check sum of tag and data. -/
def Spec.readChunk (crc32 : List UInt8 → ℕ) (bytes : List UInt8) : Option ((List UInt8 × List UInt8) × List UInt8) :=
  (readU32 bytes).bind fun r =>
    let tag := r.2.take 4
    let data := (r.2.drop 4).take r.1
    (readU32 (r.2.drop (4 + r.1))).bind fun c =>
      if tag.length = 4 ∧ data.length = r.1 ∧ c.1 = crc32 (tag ++ data) % 2 ^ 32 then some ((tag, data), c.2) else none

/-- Rows of pixels without filter (filter type 0), `n` rows of `w` bytes. -/
def Spec.readRows (w : ℕ) : ℕ → List UInt8 → Option (List UInt8)
  | 0, [] => some []
  | 0, _ => none
  | n + 1, bytes =>
    match bytes with
    | 0 :: rest => if w ≤ rest.length then (readRows w n (rest.drop w)).map (rest.take w ++ ·) else none
    | _ => none

/-- A reader for files with 8 bit RGBA pixels, one IDAT chunk, no interlacing: bytes of the bitmap and shape `(height, width, 4)`. -/
def Spec.readPng (decompress : List UInt8 → Option (List UInt8)) (crc32 : List UInt8 → ℕ) (bytes : List UInt8) : Option (List UInt8 × List ℕ) :=
  if bytes.take 8 = [137, 80, 78, 71, 13, 10, 26, 10] then
    (readChunk crc32 (bytes.drop 8)).bind fun head =>
      (readChunk crc32 head.2).bind fun body =>
        (readChunk crc32 body.2).bind fun last =>
          if head.1.1 = "IHDR".toList.map (fun c => UInt8.ofNat c.toNat) ∧ body.1.1 = "IDAT".toList.map (fun c => UInt8.ofNat c.toNat) ∧
              last.1 = ("IEND".toList.map (fun c => UInt8.ofNat c.toNat), []) ∧ last.2 = [] then
            (readU32 head.1.2).bind fun w =>
              (readU32 w.2).bind fun h =>
                if h.2 = [8, 6, 0, 0, 0] then (decompress body.1.2).bind fun raw => (readRows (w.1 * 4) h.1 raw).map fun buf => (buf, [h.1, w.1, 4]) else none
          else none
  else none

/-! ### Proof -/

theorem readU32_pack {n : ℕ} {l : List UInt8} (h : packU32 n = some l) (rest : List UInt8) : Spec.readU32 (l ++ rest) = some (n, rest) ∧ l.length = 4 := by
  unfold packU32 at h
  split at h
  · rename_i hn
    rw [Option.some.injEq] at h
    subst h
    refine ⟨?_, rfl⟩
    simp only [Spec.readU32, List.cons_append, List.nil_append, UInt8.toNat_ofNat']
    congr 2
    omega
  · cases h

theorem readChunk_pack {crc32 : List UInt8 → ℕ} {tag data l : List UInt8} (ht : tag.length = 4) (h : pack crc32 tag data = some l) (rest : List UInt8) :
    Spec.readChunk crc32 (l ++ rest) = some ((tag, data), rest) := by
  unfold pack at h
  cases h1 : packU32 data.length with
  | none => rw [h1] at h; simp at h
  | some a =>
    cases h2 : packU32 (crc32 (tag ++ data) % 2 ^ 32) with
    | none => rw [h1, h2] at h; simp at h
    | some c =>
      rw [h1, h2] at h
      simp only [Option.bind_some, Option.map_some, Option.some.injEq] at h
      subst h
      unfold Spec.readChunk
      rw [List.append_assoc, List.append_assoc, (readU32_pack h1 _).1]
      simp only [Option.bind_some]
      have e1 : (tag ++ data ++ (c ++ rest)).take 4 = tag := by
        rw [List.append_assoc, ← ht, List.take_left]
      have e2 : ((tag ++ data ++ (c ++ rest)).drop 4).take data.length = data := by
        rw [List.append_assoc, ← ht, List.drop_left, List.take_left]
      have e3 : (tag ++ data ++ (c ++ rest)).drop (4 + data.length) = c ++ rest := by
        rw [← ht, ← List.length_append, List.drop_left]
      rw [e1, e2, e3, (readU32_pack h2 rest).1]
      simp [ht]

theorem rawData_rows {buf : List UInt8} {width height : ℕ} (hw : 0 < width) (hb : buf.length = height * width * 4) :
    ∃ raw, rawData buf width height = some raw ∧ Spec.readRows (width * 4) height raw = some buf := by
  have hfilter : ((List.range (buf.length + height + 1)).filter fun k : ℕ => ((k * (width * 4) : ℕ) : ℤ) < ((height : ℤ) - 1) * ((width * 4 : ℕ) : ℤ) + 1) = List.range height := by
    have h1 : ∀ k : ℕ, (((k * (width * 4) : ℕ) : ℤ) < ((height : ℤ) - 1) * ((width * 4 : ℕ) : ℤ) + 1) ↔ k < height := by
      intro k
      have hw' : (0 : ℤ) < ((width * 4 : ℕ) : ℤ) := by exact_mod_cast (by omega)
      constructor
      · intro h
        by_contra hc
        have : (height : ℤ) ≤ k := by exact_mod_cast not_lt.1 hc
        push_cast at h hw'
        nlinarith
      · intro h
        have : (k : ℤ) ≤ (height : ℤ) - 1 := by
          have : (k : ℤ) < height := by exact_mod_cast h
          linarith
        push_cast at hw' ⊢
        nlinarith
    simp only [h1]
    rw [show buf.length + height + 1 = height + (buf.length + 1) by omega, List.range_add, List.filter_append]
    have e1 : (List.range height).filter (fun k => decide (k < height)) = List.range height := by
      rw [List.filter_eq_self]
      intro k hk
      simpa using hk
    have e2 : ((List.range (buf.length + 1)).map fun x => height + x).filter (fun k => decide (k < height)) = [] := by
      rw [List.filter_eq_nil_iff]
      intro k hk
      obtain ⟨x, -, rfl⟩ := List.mem_map.1 hk
      simp
    rw [e1, e2, List.append_nil]
  refine ⟨(List.range height).flatMap fun k => 0 :: (buf.drop (k * (width * 4))).take (width * 4), ?_, ?_⟩
  · unfold rawData
    rw [if_neg (by omega)]
    simp only [hfilter]
  · clear hfilter
    rw [Nat.mul_assoc] at hb
    generalize width * 4 = w at hb ⊢
    induction height generalizing buf with
    | zero =>
      have : buf = [] := by
        rw [← List.length_eq_zero_iff]
        omega
      subst this
      rfl
    | succ n ih =>
      have hl : buf.length = n * w + w := by rw [hb, Nat.succ_mul]
      rw [List.range_succ_eq_map, List.flatMap_cons, List.flatMap_map]
      simp only [Nat.zero_mul, List.drop_zero, List.cons_append, Spec.readRows]
      have e : ((List.range n).flatMap fun k => (0 : UInt8) :: (buf.drop ((k + 1) * w)).take w) = (List.range n).flatMap fun k => 0 :: ((buf.drop w).drop (k * w)).take w := by
        simp only [List.drop_drop, Nat.succ_mul, Nat.add_comm]
      have ht : (buf.take w).length = w := by rw [List.length_take]; omega
      rw [if_pos (by rw [List.length_append, ht]; omega)]
      simp only [Nat.succ_eq_add_one, e]
      have e1 : ∀ z : List UInt8, (buf.take w ++ z).drop w = z := by
        intro z
        exact List.drop_left' ht
      have e2 : ∀ z : List UInt8, (buf.take w ++ z).take w = buf.take w := by
        intro z
        exact List.take_left' ht
      rw [e1, e2, ih (by rw [List.length_drop]; omega)]
      simp

/-- C93: for every bitmap of type uint8 with four channels, at least one pixel per row and sizes that fit into the format, the written file is accepted by a reader and gives back the
bitmap. -/
theorem png_round_trip {compress : List UInt8 → List UInt8} {decompress : List UInt8 → Option (List UInt8)} (hz : ∀ x, decompress (compress x) = some x) (crc32 : List UInt8 → ℕ)
    (buf : List UInt8) (height width : ℕ) (hb : buf.length = height * width * 4) {file : List UInt8} (h : writePng compress crc32 buf [height, width, 4] = some file) :
    Spec.readPng decompress crc32 file = some (buf, [height, width, 4]) := by
  have hw : 0 < width := by
    rcases Nat.eq_zero_or_pos width with rfl | h0
    · simp [writePng, rawData] at h
    · exact h0
  obtain ⟨raw, r1, r2⟩ := rawData_rows hw hb
  unfold writePng at h
  simp only [r1, Option.bind_some] at h
  cases h1 : packU32 width with
  | none => rw [h1] at h; simp at h
  | some w =>
  cases h2 : packU32 height with
  | none => rw [h1, h2] at h; simp at h
  | some hh =>
  rw [h1, h2] at h
  simp only [Option.bind_some] at h
  cases h3 : pack crc32 ihdr (w ++ hh ++ [8, 6, 0, 0, 0]) with
  | none => rw [h3] at h; simp at h
  | some head =>
  cases h4 : pack crc32 idat (compress raw) with
  | none => rw [h3, h4] at h; simp at h
  | some body =>
  cases h5 : pack crc32 iend [] with
  | none => rw [h3, h4, h5] at h; simp at h
  | some last =>
  rw [h3, h4, h5] at h
  simp only [Option.bind_some, Option.map_some, Option.some.injEq] at h
  subst h
  unfold Spec.readPng
  have e1 : (signature ++ head ++ body ++ last).take 8 = [137, 80, 78, 71, 13, 10, 26, 10] := by simp [signature]
  have e2 : (signature ++ head ++ body ++ last).drop 8 = head ++ (body ++ (last ++ [])) := by simp [signature]
  rw [if_pos e1, e2, readChunk_pack rfl h3]
  simp only [Option.bind_some]
  rw [readChunk_pack rfl h4]
  simp only [Option.bind_some]
  rw [readChunk_pack rfl h5]
  simp only [Option.bind_some]
  rw [if_pos ⟨by decide, by decide, by decide, trivial⟩, List.append_assoc, (readU32_pack h1 _).1]
  simp only [Option.bind_some]
  rw [(readU32_pack h2 _).1]
  simp only [Option.bind_some, if_true, hz, r2, Option.map_some]

/-- C93: a bitmap is written unless its shape is not that of an RGBA picture, a row has no pixels, or a size does not fit into four bytes. -/
theorem png_written_iff (compress : List UInt8 → List UInt8) (crc32 : List UInt8 → ℕ) (buf : List UInt8) (height width channels : ℕ) (hb : buf.length = height * width * 4) :
    (∃ file, writePng compress crc32 buf [height, width, channels] = some file) ↔
      channels = 4 ∧ 0 < width ∧ width < 2 ^ 32 ∧ height < 2 ^ 32 ∧ ∀ raw, rawData buf width height = some raw → (compress raw).length < 2 ^ 32 := by
  have hp : ∀ n, (∃ l, packU32 n = some l) ↔ n < 2 ^ 32 := by
    intro n
    unfold packU32
    split <;> simp [*]
  have hpk : ∀ tag data, (∃ l, pack crc32 tag data = some l) ↔ data.length < 2 ^ 32 := by
    intro tag data
    obtain ⟨c, hc⟩ := (hp (crc32 (tag ++ data) % 2 ^ 32)).2 (Nat.mod_lt _ (by norm_num))
    rw [← hp]
    unfold pack
    rw [hc]
    cases packU32 data.length <;> simp
  constructor
  · rintro ⟨file, h⟩
    unfold writePng at h
    split at h
    · rename_i hh ww heq
      simp only [List.cons.injEq, and_true] at heq
      obtain ⟨rfl, rfl, rfl⟩ := heq
      rw [Option.bind_eq_some_iff] at h
      obtain ⟨raw, h1, h⟩ := h
      rw [Option.bind_eq_some_iff] at h
      obtain ⟨w, h2, h⟩ := h
      rw [Option.bind_eq_some_iff] at h
      obtain ⟨hh', h3, h⟩ := h
      rw [Option.bind_eq_some_iff] at h
      obtain ⟨head, h4, h⟩ := h
      rw [Option.bind_eq_some_iff] at h
      obtain ⟨body, h5, h⟩ := h
      refine ⟨rfl, ?_, (hp _).1 ⟨_, h2⟩, (hp _).1 ⟨_, h3⟩, fun raw' e => ?_⟩
      · by_contra hc
        rw [Nat.eq_zero_of_not_pos hc] at h1
        simp [rawData] at h1
      · rw [h1, Option.some.injEq] at e
        subst e
        exact (hpk _ _).1 ⟨_, h5⟩
    · cases h
  · rintro ⟨rfl, hw, hw2, hh2, hc⟩
    obtain ⟨raw, r1, -⟩ := rawData_rows hw hb
    obtain ⟨w, h1⟩ := (hp width).2 hw2
    obtain ⟨h, h2⟩ := (hp height).2 hh2
    obtain ⟨head, h3⟩ := (hpk ihdr (w ++ h ++ [8, 6, 0, 0, 0])).2 (by
      rw [List.length_append, List.length_append, (readU32_pack h1 []).2, (readU32_pack h2 []).2]; norm_num)
    obtain ⟨body, h4⟩ := (hpk idat (compress raw)).2 (hc raw r1)
    obtain ⟨last, h5⟩ := (hpk iend []).2 (by norm_num)
    refine ⟨signature ++ head ++ body ++ last, ?_⟩
    unfold writePng
    simp only [r1, h1, h2, h3, h4, h5, Option.bind_some, Option.map_some]

example : ∃ file, writePng id List.length [1, 2, 3, 4, 5, 6, 7, 8] [2, 1, 4] = some file ∧ Spec.readPng some List.length file = some ([1, 2, 3, 4, 5, 6, 7, 8], [2, 1, 4]) := by
  obtain ⟨file, h⟩ := (png_written_iff id List.length [1, 2, 3, 4, 5, 6, 7, 8] 2 1 4 rfl).2 ⟨rfl, by norm_num, by norm_num, by norm_num, fun raw h => by
    simp only [rawData] at h
    cases h
    decide⟩
  exact ⟨file, h, png_round_trip (fun _ => rfl) _ _ _ _ rfl h⟩

end Splinepy.Png
