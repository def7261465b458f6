import Verif.Model.SvgExport
import Verif.Model.Png

/-!
Model of the picture of a field in the SVG export, splinepy/io/svg.py 140-254 (`_export_spline_field`), from the screenshot of the plotter on. What the plotter draws is a parameter (external
library `vedo`): it gives a bitmap of bytes with a number of channels. The base64 text of the file is not modelled.
-/
namespace Splinepy.Svg

/-- the bitmap with an alpha layer, svg.py 214-226: three channels get a layer of 255, with 0 where all three are 255. Four channels are kept. `none` is the RuntimeError. -/
def withAlpha (channels : ℕ) (bitmap : List (List (List UInt8))) : Option (List (List (List UInt8))) :=
  if channels = 3 then some (bitmap.map fun row => row.map fun p => p ++ [if p.all (· == 255) then 0 else 255])
  else if channels = 4 then some bitmap
  else none

/-- `alpha_layer != 0`, svg.py 222, 229: the last channel -/
def isOpaque (p : List UInt8) : Bool := p.getLastD 0 != 0

/-- the number of columns of the cropped bitmap, svg.py 233-236 -/
def cropWidth {P : Type} (visible : P → Bool) (bitmap : List (List P)) (width : ℕ) : Option ℕ :=
  let columns := (List.range width).filter fun j => bitmap.any fun row => (row[j]?.map visible).getD false
  columns.min?.bind fun c0 => columns.max?.map fun c1 => c1 - c0

/-- the file of the picture of a field, svg.py 211-248: the alpha layer, the crop, `_write_png` of the bytes in C order -/
def fieldFile (compress : List UInt8 → List UInt8) (crc32 : List UInt8 → ℕ) (channels : ℕ) (bitmap : List (List (List UInt8))) (width : ℕ) : Option (List UInt8) :=
  (withAlpha channels bitmap).bind fun b => (crop isOpaque b width).bind fun q => (cropWidth isOpaque b width).bind fun w =>
    Png.writePng compress crc32 (q.flatten.flatten) [q.length, w, 4]

/-- the attributes x, y, width and height of the image element, svg.py 238-246, for the bounds of the sampled spline -/
def fieldPlace {K : Type} [Field K] (boxMinX boxMaxY xMin yMin xMax yMax : K) : K × K × K × K := (xMin - boxMinX, boxMaxY - yMax, xMax - xMin, yMax - yMin)

end Splinepy.Svg
