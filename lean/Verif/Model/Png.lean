import Mathlib.Data.List.Basic
import Mathlib.Data.Int.Notation

/-!
Model of the PNG writer and of the colours of the SVG export, splinepy/io/svg.py 23-137. `zlib.compress` and `zlib.crc32` are parameters (external library); base64 encoding of the result
is not modelled.
-/
namespace Splinepy.Png

/-- `struct.pack("!I", n)`: four bytes, most significant first; larger numbers raise. (splinepy/io/svg.py 112, 118) -/
def packU32 (n : ℕ) : Option (List UInt8) :=
  if n < 2 ^ 32 then some [UInt8.ofNat (n / 2 ^ 24), UInt8.ofNat (n / 2 ^ 16 % 256), UInt8.ofNat (n / 2 ^ 8 % 256), UInt8.ofNat (n % 256)] else none

/-- `png_pack`, svg.py 94-119. -/
def pack (crc32 : List UInt8 → ℕ) (tag data : List UInt8) : Option (List UInt8) :=
  (packU32 data.length).bind fun l => (packU32 (crc32 (tag ++ data) % 2 ^ 32)).map fun c => l ++ (tag ++ data) ++ c

/-- `b"".join(b"\\x00" + buf[span : span + width_byte_4] for span in range(0, (height - 1) * width_byte_4 + 1, width_byte_4))`, svg.py 83-92. A step of zero raises. -/
def rawData (buf : List UInt8) (width height : ℕ) : Option (List UInt8) :=
  if width = 0 then none
  else
    let w := width * 4
    let stop : ℤ := ((height : ℤ) - 1) * w + 1
    some (((List.range (buf.length + height + 1)).filter fun k : ℕ => ((k * w : ℕ) : ℤ) < stop).flatMap fun k => 0 :: (buf.drop (k * w)).take w)

/-- The signature of the format, svg.py 123. -/
def signature : List UInt8 := [0x89, 0x50, 0x4e, 0x47, 0x0d, 0x0a, 0x1a, 0x0a]

/-- Tags of the chunks: IHDR, IDAT, IEND. (splinepy/io/svg.py 124-129) -/
def ihdr : List UInt8 := [0x49, 0x48, 0x44, 0x52]
/-- Tag of the chunk of the pixels, splinepy/io/svg.py 128. -/
def idat : List UInt8 := [0x49, 0x44, 0x41, 0x54]
/-- Tag of the last chunk, splinepy/io/svg.py 129. -/
def iend : List UInt8 := [0x49, 0x45, 0x4e, 0x44]

/-- `_write_png(bitmap, as_base64=False)`, svg.py 43-137, for a bitmap of type uint8 given by its bytes in C order and its shape `(height, width, channels)`. -/
def writePng (compress : List UInt8 → List UInt8) (crc32 : List UInt8 → ℕ) (buf : List UInt8) (shape : List ℕ) : Option (List UInt8) :=
  match shape with
  | [height, width, 4] =>
    (rawData buf width height).bind fun raw =>
      (packU32 width).bind fun w => (packU32 height).bind fun h =>
        (pack crc32 ihdr (w ++ h ++ [8, 6, 0, 0, 0])).bind fun head =>
          (pack crc32 idat (compress raw)).bind fun body =>
            (pack crc32 iend []).map fun tail => signature ++ head ++ body ++ tail
  | _ => none

end Splinepy.Png
