import Verif.Model.Color
/-!
# Model of `src/graphics/image.cc`

A pixel map is a list of bytes; bytes that were never written are `none`.  `malloc` always succeeds, sizes are
unbounded.  Converting a number outside of -128 .. 127 to `char` is undefined by the language; the model has what the
usual compilers produce (truncate to `int`, keep the low eight bits).  `char` is signed (x86).
-/
namespace Clip
noncomputable section

/-- image.h:22-24 `PixelFormat`. -/
inductive PixelFormat where
  | rgb8
  | rgba8
  deriving DecidableEq, Repr

/-- image.cc:118-131 `getPixelSize`. -/
def PixelFormat.size : PixelFormat → Nat
  | .rgb8 => 3
  | .rgba8 => 4

/-- image.h:53-57, the members of `Image`. -/
structure Image where
  format : PixelFormat
  width : Nat
  height : Nat
  pixmap : List (Option UInt8)

/-- image.cc:20-33 `Image(pixel_format, width, height)`. -/
def Image.new (f : PixelFormat) (w h : Nat) : Image := ⟨f, w, h, List.replicate (w * h * f.size) none⟩

/-- The conversion `char = double`. -/
def toChar (x : ℝ) : UInt8 := UInt8.ofNat (truncZ x % 256).toNat

/-- The value of a (signed) `char`. -/
def charVal (c : UInt8) : ℤ := if c.toNat < 128 then c.toNat else (c.toNat : ℤ) - 256

/-- `char / 255.0f`. -/
def charDiv (c : UInt8) : ℝ :=
  if 0 ≤ charVal c then f32Div (charVal c).toNat 255 else -f32Div (-charVal c).toNat 255

/-- image.cc:133-142 `encodePixel_RGBA8`. -/
def encodeRGBA8 (c : Color) : List UInt8 := [toChar (c.r * 255), toChar (c.g * 255), toChar (c.b * 255), toChar (c.a * 255)]

/-- image.cc:144-158 `encodePixel`, `data = pixmap + pos`; nothing is written in format RGB8. -/
def encodePixel (f : PixelFormat) (c : Color) (pixmap : List (Option UInt8)) (pos : Nat) : List (Option UInt8) :=
  match f with
  | .rgba8 => pixmap.take pos ++ (encodeRGBA8 c).map some ++ pixmap.drop (pos + 4)
  | .rgb8 => pixmap

/-- image.cc:160-170 `decodePixel_RGBA8`. -/
def decodeRGBA8 : List (Option UInt8) → Outcome Unit Color
  | some r :: some g :: some b :: some a :: _ => .ok ⟨charDiv r, charDiv g, charDiv b, charDiv a⟩
  | _ => .undefined

/-- image.cc:172-185 `decodePixel`, `data = pixmap + pos`. -/
def decodePixel (f : PixelFormat) (pixmap : List (Option UInt8)) (pos : Nat) : Outcome Unit Color :=
  match f with
  | .rgba8 => decodeRGBA8 (pixmap.drop pos)
  | .rgb8 => .ok Color.black

/-- image.cc:83-91 `getPixel(idx)`; the assertion is modelled as undefined behaviour (it aborts in debug builds). -/
def Image.getPixelIdx (i : Image) (idx : Nat) : Outcome Unit Color :=
  if idx < i.width * i.height then decodePixel i.format i.pixmap (idx * i.format.size) else .undefined

/-- image.cc:79-81 `getPixel(x, y)`. -/
def Image.getPixel (i : Image) (x y : Nat) : Outcome Unit Color := i.getPixelIdx (y * i.width + x)

/-- image.cc:97-106 `setPixel(idx, color)`. -/
def Image.setPixelIdx (i : Image) (idx : Nat) (c : Color) : Outcome Unit Image :=
  if idx < i.width * i.height then .ok { i with pixmap := encodePixel i.format c i.pixmap (idx * i.format.size) }
  else .undefined

/-- image.cc:93-95 `setPixel(x, y, color)`. -/
def Image.setPixel (i : Image) (x y : Nat) (c : Color) : Outcome Unit Image := i.setPixelIdx (y * i.width + x) c

/-- image.cc:108-117 `clear`. -/
def Image.clear (i : Image) (c : Color) : Image :=
  let px := (List.range (i.width * i.height)).foldl
    (fun m k => encodePixel i.format c m (k * i.format.size)) i.pixmap
  { i with pixmap := px }

/-- image.cc:187-199 `convertImage_RGB8_RGBA8`. -/
def Image.toRGBA (i : Image) : Image :=
  let new := Image.new .rgba8 i.width i.height
  let px := (List.range (i.width * i.height)).foldl
    (fun m k => m.take (k * 4) ++ ((i.pixmap.drop (k * 3)).take 3 ++ [some 0xff]) ++ m.drop (k * 4 + 4)) new.pixmap
  { new with pixmap := px }

/-- image.cc:201-212 `convertImage_RGB8A_RGB8` (declared as `convertImage_RGBA8_RGB8` in image.h:60). -/
def Image.toRGB (i : Image) : Image :=
  let new := Image.new .rgb8 i.width i.height
  let px := (List.range (i.width * i.height)).foldl
    (fun m k => m.take (k * 3) ++ (i.pixmap.drop (k * 4)).take 3 ++ m.drop (k * 3 + 3)) new.pixmap
  { new with pixmap := px }

end
end Clip
