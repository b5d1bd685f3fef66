import Verif.Model.Image
/-!
# Model of `src/graphics/png.cc`

What is handed to libpng: the header and the row pointers.  libpng itself is not modelled.
-/
namespace Clip

/-- The colour types used (`PNG_COLOR_TYPE_RGB`, `PNG_COLOR_TYPE_RGB_ALPHA`). -/
inductive PngColorType where
  | rgb
  | rgbAlpha
  deriving DecidableEq, Repr

/-- What libpng is told to write. -/
structure PngCalls where
  width : Nat
  height : Nat
  bitDepth : Nat
  colorType : PngColorType
  rows : List (List (Option UInt8))

/-- png.cc:65-69: the row pointers; libpng reads `width` pixels from each of them.  (`buf` has room for exactly as many
pointers as there are rows.) -/
def pngRows (i : Image) : List (List (Option UInt8)) :=
  (List.range i.height).map fun y => (i.pixmap.drop (y * i.format.size * i.width)).take (i.width * i.format.size)

/-- png.cc:24-80 `pngWriteImageFile`; `opened`: whether the file could be opened for writing.  The result of `fopen` is not
checked, libpng then writes to the null pointer. -/
def pngWriteImageFile (i : Image) (opened : Bool) : Outcome Unit PngCalls :=
  let colorType := match i.format with
    | .rgb8 => PngColorType.rgb
    | .rgba8 => PngColorType.rgbAlpha
  if opened then .ok { width := i.width, height := i.height, bitDepth := 8, colorType := colorType, rows := pngRows i }
  else .undefined

end Clip
