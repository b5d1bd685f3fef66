import Verif.Model.Image
import Verif.Props.Color
import Mathlib.Tactic.IntervalCases
/-!
# C36: pixels of an image
-/
set_option linter.unusedSimpArgs false
namespace Clip
noncomputable section

/-- Specification: an image whose pixel map has the size of its format and dimensions. -/
def Image.WellFormed (i : Image) : Prop := i.pixmap.length = i.width * i.height * i.format.size

/-- Specification: the channel of a pixel with byte `k` (0 .. 255) is `k / 255` up to single precision. -/
def NearByte (x : ℝ) (k : ℕ) : Prop := abs (x - k / 255) ≤ 1 / 2 ^ 24

/-! ## Lists of blocks -/

theorem block_get {α : Type} (m src : List α) (p j : Nat) (h : p + src.length ≤ m.length) :
    (m.take p ++ src ++ m.drop (p + src.length))[j]? =
      if p ≤ j ∧ j < p + src.length then src[j - p]? else m[j]? := by
  by_cases h1 : j < p
  · rw [List.getElem?_append_left (by simp; omega), List.getElem?_append_left (by simp; omega), List.getElem?_take,
      if_pos h1, if_neg (by omega)]
  · by_cases h2 : j < p + src.length
    · rw [List.getElem?_append_left (by simp; omega), List.getElem?_append_right (by simp; omega), if_pos (by omega)]
      congr 1; simp; omega
    · rw [List.getElem?_append_right (by simp; omega), List.getElem?_drop, if_neg (by omega)]
      congr 1; simp; omega

theorem fold_blocks {α : Type} (s : Nat) (f : Nat → List α) (hf : ∀ k, (f k).length = s) (n : Nat) (m : List α)
    (h : n * s ≤ m.length) :
    (List.range n).foldl (fun m k => m.take (k * s) ++ f k ++ m.drop (k * s + s)) m =
      (List.range n).flatMap f ++ m.drop (n * s) := by
  have hl : ∀ n, ((List.range n).flatMap f).length = n * s := by
    intro n
    induction n with
    | zero => simp
    | succ n ih => rw [List.range_succ, List.flatMap_append, List.length_append, ih]; simp [hf, Nat.succ_mul]
  induction n with
  | zero => simp
  | succ n ih =>
    rw [Nat.succ_mul] at h
    rw [List.range_succ, List.foldl_append, ih (by omega)]
    simp only [List.foldl_cons, List.foldl_nil, List.flatMap_append, List.flatMap_cons, List.flatMap_nil, List.append_nil]
    have e1 : (List.flatMap f (List.range n) ++ List.drop (n * s) m).take (n * s) = List.flatMap f (List.range n) := by
      rw [List.take_append_of_le_length (by rw [hl]), List.take_of_length_le (by rw [hl])]
    have e2 : (List.flatMap f (List.range n) ++ List.drop (n * s) m).drop (n * s + s) = m.drop ((n + 1) * s) := by
      rw [List.drop_append, List.drop_of_length_le (by rw [hl]; omega), hl, List.drop_drop, List.nil_append]
      congr 1; rw [Nat.succ_mul]; omega
    rw [e1, e2]

theorem flatMap_block {α : Type} (s : Nat) (f : Nat → List α) (hf : ∀ k, (f k).length = s) (n k : Nat) (h : k < n)
    (r : List α) : (((List.range n).flatMap f ++ r).drop (k * s)).take s = f k := by
  have hl : ∀ n, ((List.range n).flatMap f).length = n * s := by
    intro n
    induction n with
    | zero => simp
    | succ n ih => rw [List.range_succ, List.flatMap_append, List.length_append, ih]; simp [hf, Nat.succ_mul]
  induction n generalizing r with
  | zero => omega
  | succ n ih =>
    rw [List.range_succ, List.flatMap_append, List.append_assoc]
    by_cases hk : k < n
    · exact ih hk _
    · have : k = n := by omega
      subst this
      rw [List.drop_append, List.drop_of_length_le (by rw [hl]), hl]
      simp only [Nat.sub_self, List.drop_zero, List.nil_append, List.flatMap_cons, List.flatMap_nil, List.append_nil]
      rw [List.take_append_of_le_length (by rw [hf]), List.take_of_length_le (by rw [hf])]

/-! ## Bytes -/

theorem toChar_of_trunc {x : ℝ} {k : Nat} (h : truncZ x = k) (hk : k < 256) : (toChar x).toNat = k := by
  unfold toChar
  rw [h]
  have : ((k : ℤ) % 256).toNat = k := by omega
  rw [this]
  simp; omega

theorem toChar_unit {x : ℝ} (h0 : 0 ≤ x) (h1 : x ≤ 1) :
    (toChar (x * 255)).toNat = ⌊x * 255⌋₊ ∧ ⌊x * 255⌋₊ < 256 := by
  have hk : ⌊x * 255⌋₊ < 256 := by
    rw [Nat.floor_lt (by positivity)]; push_cast; linarith
  refine ⟨toChar_of_trunc ?_ hk, hk⟩
  have : 0 ≤ x * 255 := by positivity
  simp [truncZ, this, Int.natCast_floor_eq_floor this]

theorem truncZ_neg (x : ℝ) : truncZ (-x) = -truncZ x := by
  unfold truncZ
  rcases lt_trichotomy x 0 with h | h | h
  · rw [if_pos (by linarith), if_neg (by linarith), Int.floor_neg]
  · subst h; simp
  · rw [if_neg (by linarith), if_pos (by linarith), Int.ceil_neg]

theorem toChar_charDiv (c : UInt8) : toChar (charDiv c * 255) = c := by
  have hc := c.toNat_lt
  apply UInt8.toNat_inj.1
  unfold charDiv charVal
  by_cases h : c.toNat < 128
  · rw [if_pos h, if_pos (by omega), Int.toNat_natCast]
    exact toChar_of_trunc (channel_trunc _ (by omega)) (by omega)
  · rw [if_neg h, if_neg (by omega)]
    have e : (-((c.toNat : ℤ) - 256)).toNat = 256 - c.toNat := by omega
    rw [e]
    have ht := channel_trunc (256 - c.toNat) (by omega)
    have hn : truncZ (-f32Div (256 - c.toNat) 255 * 255) = -((256 - c.toNat : ℕ) : ℤ) := by
      rw [neg_mul, truncZ_neg, ht]
    unfold toChar
    rw [hn]
    have : (-((256 - c.toNat : ℕ) : ℤ) % 256).toNat = c.toNat := by omega
    rw [this]; simp

theorem charDiv_low {c : UInt8} (h : c.toNat < 128) : NearByte (charDiv c) c.toNat := by
  unfold charDiv charVal NearByte
  rw [if_pos h, if_pos (by omega), Int.toNat_natCast]
  exact channel_near _ (by omega)

theorem charDiv_high {c : UInt8} (h : 128 ≤ c.toNat) : charDiv c < 0 := by
  have hc := c.toNat_lt
  unfold charDiv charVal
  rw [if_neg (by omega), if_neg (by omega)]
  have e : (-((c.toNat : ℤ) - 256)).toNat = 256 - c.toNat := by omega
  rw [e]
  have hn := channel_near (256 - c.toNat) (by omega)
  have := (abs_le.1 hn).1
  have h1 : (1 : ℝ) ≤ ((256 - c.toNat : ℕ) : ℝ) := by exact_mod_cast (by omega : 1 ≤ 256 - c.toNat)
  have h2 : (1 : ℝ) / 255 ≤ ((256 - c.toNat : ℕ) : ℝ) / 255 := by gcongr
  have h3 : (1 : ℝ) / 2 ^ 24 < 1 / 255 := by norm_num
  linarith

/-! ## Reading and writing pixels -/

theorem pixel_index {w h x y : Nat} (hx : x < w) (hy : y < h) : y * w + x < w * h := by
  calc y * w + x < y * w + w := by omega
    _ = (y + 1) * w := by rw [Nat.succ_mul]
    _ ≤ h * w := Nat.mul_le_mul_right _ hy
    _ = w * h := Nat.mul_comm _ _

theorem pixel_index_inj {w x y x' y' : Nat} (hx : x < w) (hx' : x' < w) (h : y * w + x = y' * w + x') :
    x = x' ∧ y = y' := by
  have h1 : (y * w + x) / w = y := by
    rw [Nat.add_comm, Nat.add_mul_div_right _ _ (by omega), Nat.div_eq_of_lt hx, Nat.zero_add]
  have h2 : (y' * w + x') / w = y' := by
    rw [Nat.add_comm, Nat.add_mul_div_right _ _ (by omega), Nat.div_eq_of_lt hx', Nat.zero_add]
  have : y = y' := by rw [← h1, h, h2]
  subst this
  omega

/-- The pixel map cell list of a pixel determines what is read. -/
theorem decode_take (m : List (Option UInt8)) (p : Nat) : decodeRGBA8 (m.drop p) = decodeRGBA8 ((m.drop p).take 4) := by
  match m.drop p with
  | [] => rfl
  | [_] => rfl
  | [_, _] => rfl
  | [_, _, _] => rfl
  | a :: b :: c :: d :: t =>
    rcases a with _ | a <;> rcases b with _ | b <;> rcases c with _ | c <;> rcases d with _ | d <;> rfl

theorem encode_length {f : PixelFormat} (c : Color) {m : List (Option UInt8)} {p : Nat} (h : p + f.size ≤ m.length) :
    (encodePixel f c m p).length = m.length := by
  cases f with
  | rgb8 => rfl
  | rgba8 => simp only [PixelFormat.size] at h; simp [encodePixel, encodeRGBA8]; omega

theorem block_of_get {α : Type} {m m' : List α} {p s : Nat} (h : ∀ j, p ≤ j → j < p + s → m[j]? = m'[j]?) :
    (m.drop p).take s = (m'.drop p).take s := by
  apply List.ext_getElem?
  intro j
  rw [List.getElem?_take, List.getElem?_take]
  split
  · next hj => rw [List.getElem?_drop, List.getElem?_drop]; exact h _ (by omega) (by omega)
  · rfl

theorem encode_other {c : Color} {m : List (Option UInt8)} {k k' n : Nat} (hl : m.length = n * 4) (hk : k < n)
    (hne : k' ≠ k) : ((encodePixel .rgba8 c m (k * 4)).drop (k' * 4)).take 4 = (m.drop (k' * 4)).take 4 := by
  apply block_of_get
  intro j h1 h2
  have hb := block_get m ((encodeRGBA8 c).map some) (k * 4) j (by simp [encodeRGBA8]; omega)
  have e4 : ((encodeRGBA8 c).map some).length = 4 := rfl
  rw [e4] at hb
  simp only [encodePixel]
  rw [hb, if_neg (by omega)]

theorem encode_same {c : Color} {m : List (Option UInt8)} {k n : Nat} (hl : m.length = n * 4) (hk : k < n) :
    ((encodePixel .rgba8 c m (k * 4)).drop (k * 4)).take 4 = (encodeRGBA8 c).map some := by
  simp only [encodePixel, List.append_assoc]
  rw [List.drop_append, List.drop_of_length_le (by simp), List.nil_append]
  have : k * 4 - (List.take (k * 4) m).length = 0 := by simp; omega
  rw [this, List.drop_zero, List.take_append_of_le_length (by simp [encodeRGBA8])]
  rfl

/-- C36: writing a pixel succeeds, keeps the image well-formed and of the same dimensions, and no other pixel changes. -/
theorem C36_write_other (i : Image) (hw : i.WellFormed) (x y : Nat) (hx : x < i.width) (hy : y < i.height) (c : Color) :
    ∃ i', i.setPixel x y c = .ok i' ∧ i'.WellFormed ∧ i'.width = i.width ∧ i'.height = i.height ∧
      i'.format = i.format ∧
      ∀ x' y', x' < i.width → y' < i.height → (x', y') ≠ (x, y) → i'.getPixel x' y' = i.getPixel x' y' := by
  have hi := pixel_index hx hy
  have hset : i.setPixel x y c = .ok { i with pixmap := encodePixel i.format c i.pixmap ((y * i.width + x) * i.format.size) } := by
    rw [Image.setPixel, Image.setPixelIdx, if_pos hi]
  refine ⟨_, hset, ?_, rfl, rfl, rfl, ?_⟩
  · unfold Image.WellFormed at hw ⊢
    simp only
    rw [encode_length _ _, hw]
    rw [hw]
    calc (y * i.width + x) * i.format.size + i.format.size = (y * i.width + x + 1) * i.format.size := by rw [Nat.succ_mul]
      _ ≤ _ := Nat.mul_le_mul_right _ hi
  · intro x' y' hx' hy' hne
    have hi' := pixel_index hx' hy'
    unfold Image.getPixel Image.getPixelIdx
    simp only [hi', if_true]
    cases hf : i.format with
    | rgb8 => rfl
    | rgba8 =>
      have hl : i.pixmap.length = i.width * i.height * 4 := by
        have := hw; rw [Image.WellFormed, hf] at this; exact this
      simp only [decodePixel, PixelFormat.size]
      have hk : y' * i.width + x' ≠ y * i.width + x := by
        intro e
        obtain ⟨e1, e2⟩ := pixel_index_inj hx' hx e
        exact hne (by rw [e1, e2])
      rw [decode_take, encode_other hl hi hk, ← decode_take]

theorem write_read {i i' : Image} (hw : i.WellFormed) (hf : i.format = .rgba8) {x y : Nat} (hx : x < i.width)
    (hy : y < i.height) {c : Color} (h : i.setPixel x y c = .ok i') :
    i'.getPixel x y = .ok ⟨charDiv (toChar (c.r * 255)), charDiv (toChar (c.g * 255)), charDiv (toChar (c.b * 255)),
      charDiv (toChar (c.a * 255))⟩ := by
  have hi := pixel_index hx hy
  rw [Image.setPixel, Image.setPixelIdx, if_pos hi] at h
  injection h with h
  subst h
  have hl : i.pixmap.length = i.width * i.height * 4 := by
    have := hw; rw [Image.WellFormed, hf] at this; exact this
  unfold Image.getPixel Image.getPixelIdx
  simp only [hi, if_true, hf, decodePixel, PixelFormat.size]
  rw [decode_take, encode_same hl hi]
  rfl

/-- A channel that the code can represent: from 0 to just below 128/255. -/
def LowChannel (x : ℝ) : Prop := 0 ≤ x ∧ x * 255 < 128

theorem low_read {x : ℝ} (h : LowChannel x) : NearByte (charDiv (toChar (x * 255))) ⌊x * 255⌋₊ := by
  have h1 : x ≤ 1 := by have := h.2; linarith
  obtain ⟨e, -⟩ := toChar_unit h.1 h1
  have hk : ⌊x * 255⌋₊ < 128 := by
    rw [Nat.floor_lt (mul_nonneg h.1 (by norm_num))]; exact_mod_cast h.2
  have := charDiv_low (c := toChar (x * 255)) (by rw [e]; exact hk)
  rwa [e] at this

/-- C36: what is written to a pixel of an RGBA image is read back, quantised to multiples of 1/255.  Missing: channels
of 128/255 and more, for which the claim is false (`C36_bright_negative`). -/
theorem C36_read_back_partial (i i' : Image) (hw : i.WellFormed) (hf : i.format = .rgba8) (x y : Nat) (hx : x < i.width)
    (hy : y < i.height) (c : Color) (h : i.setPixel x y c = .ok i') (hr : LowChannel c.r) (hg : LowChannel c.g)
    (hb : LowChannel c.b) (ha : LowChannel c.a) :
    ∃ d, i'.getPixel x y = .ok d ∧ NearByte d.r ⌊c.r * 255⌋₊ ∧ NearByte d.g ⌊c.g * 255⌋₊ ∧ NearByte d.b ⌊c.b * 255⌋₊ ∧
      NearByte d.a ⌊c.a * 255⌋₊ :=
  ⟨_, write_read hw hf hx hy h, low_read hr, low_read hg, low_read hb, low_read ha⟩

/-- C36, violated by the code: a channel from 128/255 to 1 is read back as a negative number; so is the alpha channel of
every opaque colour. -/
theorem C36_bright_negative (i i' : Image) (hw : i.WellFormed) (hf : i.format = .rgba8) (x y : Nat) (hx : x < i.width)
    (hy : y < i.height) (c : Color) (h : i.setPixel x y c = .ok i') (hr : 128 ≤ c.r * 255) (hr1 : c.r ≤ 1)
    (ha : c.a = 1) :
    ∃ d, i'.getPixel x y = .ok d ∧ d.r < 0 ∧ d.a < 0 := by
  refine ⟨_, write_read hw hf hx hy h, ?_, ?_⟩
  · have h0 : 0 ≤ c.r := by linarith
    obtain ⟨e, -⟩ := toChar_unit h0 hr1
    apply charDiv_high
    rw [e]; exact Nat.le_floor (by exact_mod_cast hr)
  · obtain ⟨e, -⟩ := toChar_unit (x := c.a) (by rw [ha]; norm_num) (by rw [ha])
    apply charDiv_high
    rw [e]; exact Nat.le_floor (by rw [ha]; norm_num)

/-- C36: writing back what was read from a pixel changes nothing. -/
theorem C36_write_back (i : Image) (hw : i.WellFormed) (x y : Nat) (hx : x < i.width) (hy : y < i.height) (c : Color)
    (h : i.getPixel x y = .ok c) : i.setPixel x y c = .ok i := by
  have hi := pixel_index hx hy
  unfold Image.getPixel Image.getPixelIdx at h
  rw [if_pos hi] at h
  rw [Image.setPixel, Image.setPixelIdx, if_pos hi]
  congr 1
  obtain ⟨f, w, hh, m⟩ := i
  cases f with
  | rgb8 => rfl
  | rgba8 =>
    simp only [decodePixel, PixelFormat.size, encodePixel] at h hi ⊢
    congr 1
    generalize (y * w + x) * 4 = p at h
    rcases hd : m.drop p with _ | ⟨a, _ | ⟨b, _ | ⟨g, _ | ⟨d, t⟩⟩⟩⟩ <;> rw [hd] at h <;> simp only [decodeRGBA8] at h
    · cases h
    · rcases a with _ | a <;> cases h
    · rcases a with _ | a <;> rcases b with _ | b <;> cases h
    · rcases a with _ | a <;> rcases b with _ | b <;> rcases g with _ | g <;> cases h
    · rcases a with _ | a <;> rcases b with _ | b <;> rcases g with _ | g <;> rcases d with _ | d <;>
        simp only [decodeRGBA8] at h <;> try cases h
      simp only [encodeRGBA8, toChar_charDiv]
      have ht : m.drop (p + 4) = t := by rw [← List.drop_drop, hd]; rfl
      rw [ht, List.append_assoc]
      have := List.take_append_drop p m
      rw [hd] at this
      simpa using this

theorem clear_pixels {i : Image} (hw : i.WellFormed) (hf : i.format = .rgba8) (c : Color) :
    (i.clear c).pixmap = (List.range (i.width * i.height)).flatMap fun _ => (encodeRGBA8 c).map some := by
  have hl : i.pixmap.length = i.width * i.height * 4 := by
    have := hw; rw [Image.WellFormed, hf] at this; exact this
  have := fold_blocks 4 (fun _ => (encodeRGBA8 c).map some) (fun _ => rfl) (i.width * i.height) i.pixmap (by omega)
  simp only [Image.clear, hf, encodePixel, PixelFormat.size]
  rw [this, List.drop_of_length_le (by omega), List.append_nil]

/-- C36: clearing an image gives every pixel the value it would get by being written. -/
theorem C36_clear (i i' : Image) (hw : i.WellFormed) (hf : i.format = .rgba8) (x y : Nat) (hx : x < i.width)
    (hy : y < i.height) (c : Color) (h : i.setPixel x y c = .ok i') :
    (i.clear c).getPixel x y = i'.getPixel x y := by
  rw [write_read hw hf hx hy h]
  have hi := pixel_index hx hy
  unfold Image.getPixel Image.getPixelIdx
  have e : (i.clear c).width = i.width ∧ (i.clear c).height = i.height ∧ (i.clear c).format = .rgba8 := ⟨rfl, rfl, hf⟩
  rw [e.1, e.2.1, e.2.2, if_pos hi, decodePixel, clear_pixels hw hf, decode_take]
  have := flatMap_block 4 (fun _ => (encodeRGBA8 c).map some) (fun _ => rfl) (i.width * i.height) _ hi []
  rw [List.append_nil] at this
  simp only [PixelFormat.size]
  rw [this]
  rfl

/-- C36, violated by the code: in an RGB image writing has no effect and every pixel is read as opaque black. -/
theorem C36_rgb (i : Image) (hf : i.format = .rgb8) (x y : Nat) (hx : x < i.width) (hy : y < i.height) (c : Color) :
    i.setPixel x y c = .ok i ∧ i.getPixel x y = .ok Color.black := by
  have hi := pixel_index hx hy
  obtain ⟨f, w, h, m⟩ := i
  subst hf
  constructor
  · rw [Image.setPixel, Image.setPixelIdx, if_pos hi]; rfl
  · rw [Image.getPixel, Image.getPixelIdx, if_pos hi]; rfl

/-! ## Conversions -/

theorem drop_take_length {m : List (Option UInt8)} {k n s : Nat} (hl : m.length = n * s) (hk : k < n) :
    ((m.drop (k * s)).take s).length = s := by
  have : (k + 1) * s ≤ n * s := Nat.mul_le_mul_right _ hk
  rw [Nat.succ_mul] at this
  simp; omega

theorem fold_blocks' {α : Type} (s : Nat) (f : Nat → List α) (n : Nat) (hf : ∀ k < n, (f k).length = s) (m : List α)
    (h : n * s ≤ m.length) :
    (List.range n).foldl (fun m k => m.take (k * s) ++ f k ++ m.drop (k * s + s)) m =
      (List.range n).flatMap f ++ m.drop (n * s) ∧ ((List.range n).flatMap f).length = n * s := by
  induction n with
  | zero => simp
  | succ n ih =>
    rw [Nat.succ_mul] at h
    obtain ⟨ih, hl⟩ := ih (fun k hk => hf k (by omega)) (by omega)
    have hn := hf n (by omega)
    refine ⟨?_, ?_⟩
    · rw [List.range_succ, List.foldl_append, ih]
      simp only [List.foldl_cons, List.foldl_nil, List.flatMap_append, List.flatMap_cons, List.flatMap_nil, List.append_nil]
      have e1 : (List.flatMap f (List.range n) ++ List.drop (n * s) m).take (n * s) = List.flatMap f (List.range n) := by
        rw [List.take_append_of_le_length (by rw [hl]), List.take_of_length_le (by rw [hl])]
      have e2 : (List.flatMap f (List.range n) ++ List.drop (n * s) m).drop (n * s + s) = m.drop ((n + 1) * s) := by
        rw [List.drop_append, List.drop_of_length_le (by rw [hl]; omega), hl, List.drop_drop, List.nil_append]
        congr 1; rw [Nat.succ_mul]; omega
      rw [e1, e2]
    · rw [List.range_succ, List.flatMap_append, List.length_append, hl]
      simp [hn, Nat.succ_mul]

theorem flatMap_blocks_id {α : Type} (s n : Nat) (m : List α) (h : m.length = n * s) :
    (List.range n).flatMap (fun k => (m.drop (k * s)).take s) = m := by
  have : ∀ n, n * s ≤ m.length → (List.range n).flatMap (fun k => (m.drop (k * s)).take s) = m.take (n * s) := by
    intro n hn
    induction n with
    | zero => simp
    | succ n ih =>
      rw [Nat.succ_mul] at hn
      rw [List.range_succ, List.flatMap_append, ih (by omega), Nat.succ_mul, List.take_add]
      simp
  rw [this n (by omega), List.take_of_length_le (by omega)]

theorem toRGBA_pixmap {i : Image} (hw : i.WellFormed) (hf : i.format = .rgb8) :
    i.toRGBA.pixmap = (List.range (i.width * i.height)).flatMap
      (fun k => (i.pixmap.drop (k * 3)).take 3 ++ [some 0xff]) ∧ i.toRGBA.WellFormed := by
  have hl : i.pixmap.length = i.width * i.height * 3 := by
    have := hw; rw [Image.WellFormed, hf] at this; exact this
  obtain ⟨h1, h2⟩ := fold_blocks' 4 (fun k => (i.pixmap.drop (k * 3)).take 3 ++ [some 0xff]) (i.width * i.height)
    (fun k hk => by rw [List.length_append, drop_take_length hl hk]; rfl)
    (Image.new .rgba8 i.width i.height).pixmap (by simp [Image.new, PixelFormat.size])
  have e : i.toRGBA.pixmap = (List.range (i.width * i.height)).flatMap
      (fun k => (i.pixmap.drop (k * 3)).take 3 ++ [some 0xff]) := by
    simp only [Image.toRGBA]
    rw [h1, List.drop_of_length_le (by simp [Image.new, PixelFormat.size]), List.append_nil]
  refine ⟨e, ?_⟩
  rw [Image.WellFormed, e, h2]
  rfl

/-- C36: converting an RGB image to RGBA keeps the three bytes of each pixel and makes it opaque; converting back gives
the image. -/
theorem C36_convert (i : Image) (hw : i.WellFormed) (hf : i.format = .rgb8) :
    (∀ k, k < i.width * i.height → (i.toRGBA.pixmap.drop (k * 4)).take 4 = (i.pixmap.drop (k * 3)).take 3 ++ [some 0xff]) ∧
    i.toRGBA.WellFormed ∧ i.toRGBA.toRGB = i := by
  have hl : i.pixmap.length = i.width * i.height * 3 := by
    have := hw; rw [Image.WellFormed, hf] at this; exact this
  obtain ⟨e, hwf⟩ := toRGBA_pixmap hw hf
  have hblk : ∀ k, k < i.width * i.height →
      (i.toRGBA.pixmap.drop (k * 4)).take 4 = (i.pixmap.drop (k * 3)).take 3 ++ [some 0xff] := by
    intro k hk
    let f : Nat → List (Option UInt8) := fun k =>
      if k < i.width * i.height then (i.pixmap.drop (k * 3)).take 3 ++ [some 0xff] else List.replicate 4 none
    have hfl : ∀ k, (f k).length = 4 := by
      intro k
      by_cases h : k < i.width * i.height
      · simp only [f, h, if_true]; rw [List.length_append, drop_take_length hl h]; rfl
      · simp [f, h]
    have hfe : (List.range (i.width * i.height)).flatMap f = i.toRGBA.pixmap := by
      rw [e, List.flatMap_congr]
      intro k hk
      simp only [List.mem_range] at hk
      simp [f, hk]
    have := flatMap_block 4 f hfl _ k hk []
    rw [List.append_nil, hfe] at this
    rw [this]; simp [f, hk]
  refine ⟨hblk, hwf, ?_⟩
  obtain ⟨f, w, h, m⟩ := i
  simp only at hf hl
  subst hf
  simp only [Image.toRGB]
  congr 1
  have hw4 : (Image.toRGBA ⟨.rgb8, w, h, m⟩).width = w ∧ (Image.toRGBA ⟨.rgb8, w, h, m⟩).height = h := ⟨rfl, rfl⟩
  rw [hw4.1, hw4.2]
  have hb3 : ∀ k, k < w * h →
      ((Image.toRGBA ⟨.rgb8, w, h, m⟩).pixmap.drop (k * 4)).take 3 = (m.drop (k * 3)).take 3 := by
    intro k hk
    have := congrArg (List.take 3) (hblk k hk)
    rw [List.take_take, show min 3 4 = 3 from rfl, List.take_append_of_le_length
      (by rw [drop_take_length hl hk]), List.take_take] at this
    simpa using this
  obtain ⟨h1, h2⟩ := fold_blocks' 3 (fun k => ((Image.toRGBA ⟨.rgb8, w, h, m⟩).pixmap.drop (k * 4)).take 3) (w * h)
    (fun k hk => by rw [hb3 k hk, drop_take_length hl hk]) (Image.new .rgb8 w h).pixmap (by simp [Image.new, PixelFormat.size])
  rw [h1, List.drop_of_length_le (by simp [Image.new, PixelFormat.size]), List.append_nil]
  rw [List.flatMap_congr (g := fun k => (m.drop (k * 3)).take 3)]
  · exact flatMap_blocks_id 3 (w * h) m hl
  · intro k hk; exact hb3 k (List.mem_range.1 hk)

/-- Images satisfying the hypotheses exist. -/
example : (Image.new .rgba8 3 2).WellFormed ∧ (Image.new .rgb8 3 2).WellFormed ∧ LowChannel (1 / 4) := by
  refine ⟨rfl, rfl, ?_, ?_⟩ <;> norm_num

end
end Clip
