import Verif.Model.Png
import Verif.Props.Image
/-! # C126: images in PNG files -/
set_option linter.unusedSimpArgs false
namespace Clip

/-- C126: the file gets the size and the kind of pixels of the image, with eight bits for every channel, and as many rows as the
image is high; the rows one after the other are the pixels of the image, each row as many as the image is wide. -/
theorem C126_rows (i : Image) (hw : i.WellFormed) :
    ∃ p, pngWriteImageFile i true = .ok p ∧ p.width = i.width ∧ p.height = i.height ∧ p.bitDepth = 8 ∧
      (p.colorType = .rgbAlpha ↔ i.format = .rgba8) ∧ p.rows.length = i.height ∧
      (∀ r ∈ p.rows, r.length = i.width * i.format.size) ∧ p.rows.flatten = i.pixmap := by
  refine ⟨_, rfl, rfl, rfl, rfl, ?_, by simp [pngRows], ?_, ?_⟩
  · simp only; cases i.format <;> simp
  · intro r hr
    simp only [pngRows, List.mem_map, List.mem_range] at hr
    obtain ⟨y, hy, rfl⟩ := hr
    unfold Image.WellFormed at hw
    rw [List.length_take, List.length_drop, hw]
    have e1 : y * i.format.size * i.width = y * (i.width * i.format.size) := by ring
    have e2 : i.width * i.height * i.format.size = i.height * (i.width * i.format.size) := by ring
    rw [e1, e2, ← Nat.sub_mul]
    refine Nat.min_eq_left (Nat.le_mul_of_pos_left _ (by omega))
  · have h := flatMap_blocks_id (i.width * i.format.size) i.height i.pixmap (by
      unfold Image.WellFormed at hw; rw [hw]; ring)
    rw [List.flatMap_def] at h
    simp only [pngRows]
    have e : ∀ y, y * i.format.size * i.width = y * (i.width * i.format.size) := fun y => by ring
    simp only [e]
    exact h

/-- C126: a pixel of the file is the pixel of the image at the same place: row `y` from the top, column `x` from the left. -/
theorem C126_pixel (i : Image) (hw : i.WellFormed) (hf : i.format = .rgba8) (x y : Nat) (hx : x < i.width) (hy : y < i.height) :
    ∃ p r, pngWriteImageFile i true = .ok p ∧ p.rows[y]? = some r ∧ decodeRGBA8 (r.drop (x * 4)) = i.getPixel x y := by
  refine ⟨_, (i.pixmap.drop (y * i.format.size * i.width)).take (i.width * i.format.size), rfl, by simp [pngRows, hy], ?_⟩
  rw [Image.getPixel, Image.getPixelIdx, if_pos (pixel_index hx hy), hf]
  simp only [PixelFormat.size, decodePixel]
  rw [decode_take, decode_take i.pixmap, List.drop_take, List.drop_drop, List.take_take]
  have e1 : y * 4 * i.width + x * 4 = (y * i.width + x) * 4 := by ring
  have e2 : min 4 (i.width * 4 - x * 4) = 4 := by omega
  rw [e1, e2]

/-- C126, violated by the code: when the file cannot be opened, the result is undefined (no error is reported). -/
theorem C126_unopened_undefined (i : Image) : pngWriteImageFile i false = .undefined := by
  simp [pngWriteImageFile]

/-- C126, violated by the code: an image nothing was drawn on is written with whatever the memory contained. -/
theorem C126_blank_garbage (f : PixelFormat) (w h : Nat) (hw : 0 < w) (hh : 0 < h) :
    ∃ p, pngWriteImageFile (Image.new f w h) true = .ok p ∧ none ∈ p.rows.flatten := by
  obtain ⟨p, h1, _, _, _, _, _, _, h2⟩ := C126_rows (Image.new f w h) (by simp [Image.WellFormed, Image.new])
  refine ⟨p, h1, ?_⟩
  rw [h2]
  simp only [Image.new, List.mem_replicate, and_true]
  have : 0 < f.size := by cases f <;> decide
  positivity

/-- A black image of two pixels. -/
example : ∃ p r, pngWriteImageFile ((Image.new .rgba8 2 1).clear Color.black) true = .ok p ∧ p.rows[0]? = some r ∧
    decodeRGBA8 (r.drop (1 * 4)) = ((Image.new .rgba8 2 1).clear Color.black).getPixel 1 0 :=
  C126_pixel _ (by
    unfold Image.WellFormed
    rw [clear_pixels (by simp [Image.WellFormed, Image.new]) rfl]
    rfl) rfl 1 0 (by decide) (by decide)

end Clip
