import Verif.Spec.Raster
import Mathlib.Tactic.Ring
import Mathlib.Tactic.FieldSimp
import Mathlib.Tactic.Linarith
/-!
# C108: images
-/
namespace Clip.Raster
noncomputable section
variable {φ : Type}

theorem toU32_eq (x : ℝ) (n : ℕ) : toU32 x = some n ↔ (-1 < x ∧ x < 2 ^ 32) ∧ ⌊x⌋₊ = n := by
  unfold toU32; split_ifs with h <;> simp [h]

theorem toU32_nat (n : ℕ) (h : n < 2 ^ 32) : toU32 (n : ℝ) = some n := by
  rw [toU32_eq]
  refine ⟨⟨?_, ?_⟩, Nat.floor_natCast n⟩
  · have := n.cast_nonneg (α := ℝ); linarith
  · exact_mod_cast h

theorem set_path (k : Cairo φ) (h : ℕ) (p : Path) (hm : k.matrix = cairoIdentity) :
    p.flatMap (cairoCmd k h) = straight (outline h p) := by
  induction p with
  | nil => rfl
  | cons c p ih =>
    rw [List.flatMap_cons, ih]
    cases c <;> simp [cairoCmd, hm, cairoIdentity, Mat3.apply, Mat3.mulVec, straight, outline]

theorem straight_outline (h : ℝ) (p : Path) (hp : Straight p) : straight (outline h p) = outline h p := by
  rw [straight, List.filter_eq_self]
  intro c hc
  rw [outline, List.mem_map] at hc
  obtain ⟨d, hd, rfl⟩ := hc
  have := hp d hd
  cases d <;> simp_all

theorem straight_eq (p : Path) (hp : Straight p) : straight p = p := by
  rw [straight, List.filter_eq_self]
  intro c hc
  have := hp c hc
  cases c <;> simp_all

theorem fill_ok (hatch : Path → FillHatch → Path) (h : ℕ) (c : FullCmd) (k : Cairo φ) (hm : k.matrix = cairoIdentity) :
    (rasterFill hatch h c k).matrix = cairoIdentity ∧ (rasterFill hatch h c k).painted = k.painted ++
      withoutCurves (fillPaint h (fillPath hatch c.path c.fill) c.fill.color) := by
  unfold rasterFill fillPaint
  split
  · rename_i hc; simp [hc, hm, withoutCurves]
  · rename_i col hc
    rw [hc]
    refine ⟨hm, ?_⟩
    show k.painted ++ [Paint.fill _ col] = _
    simp only [withoutCurves, List.map_cons, List.map_nil]
    rw [← set_path (k.setSource col) h _ hm]
    rfl

theorem stroke_ok (h : ℕ) (c : FullCmd) (k : Cairo φ) (hm : k.matrix = cairoIdentity) :
    (rasterStroke h c k).matrix = cairoIdentity ∧ (rasterStroke h c k).painted = k.painted ++
      withoutCurves (strokePaint h c.path c.stroke) := by
  unfold rasterStroke strokePaint
  split_ifs with hw
  · simp [hm, withoutCurves]
  · cases hd : c.stroke.dash with
    | none =>
      refine ⟨hm, ?_⟩
      show k.painted ++ [Paint.stroke (c.path.flatMap (cairoCmd
        { k with dash := (0, []), source := c.stroke.color, lineWidth := c.stroke.width } h)) c.stroke.color c.stroke.width (0, [])
        k.matrix] = _
      rw [set_path { k with dash := (0, []), source := c.stroke.color, lineWidth := c.stroke.width } h _ hm, hm]; rfl
    | some d =>
      refine ⟨hm, ?_⟩
      show k.painted ++ [Paint.stroke (c.path.flatMap (cairoCmd
        { k with dash := d, source := c.stroke.color, lineWidth := c.stroke.width } h)) c.stroke.color c.stroke.width d
        k.matrix] = _
      rw [set_path { k with dash := d, source := c.stroke.color, lineWidth := c.stroke.width } h _ hm, hm]; rfl

theorem shape_ok (hatch : Path → FillHatch → Path) (h : ℕ) (c : FullCmd) (k : Cairo φ) (hm : k.matrix = cairoIdentity) :
    (rasterStroke h c (rasterFill hatch h c k)).matrix = cairoIdentity ∧
    (rasterStroke h c (rasterFill hatch h c k)).painted = k.painted ++ withoutCurves (shapePaint hatch h c) := by
  obtain ⟨h1, h2⟩ := fill_ok hatch h c k hm
  obtain ⟨h3, h4⟩ := stroke_ok h c _ h1
  refine ⟨h3, ?_⟩
  rw [h4, h2, shapePaint, List.append_assoc]
  simp only [withoutCurves, List.map_append]
  rfl

theorem shapes_ok (hatch : Path → FillHatch → Path) (h : ℕ) : (cs : List FullCmd) → (k : Cairo φ) →
    k.matrix = cairoIdentity → (∀ c ∈ cs, 2 ≤ c.path.length) →
    ∃ k', rasterShapes hatch h cs k = some k' ∧ k'.painted = k.painted ++ withoutCurves (cs.flatMap (shapePaint hatch h))
  | [], k, _, _ => ⟨k, rfl, by simp [withoutCurves]⟩
  | c :: cs, k, hm, hl => by
    obtain ⟨h1, h2⟩ := shape_ok hatch h c k hm
    obtain ⟨k', h3, h4⟩ := shapes_ok hatch h cs _ h1 fun d hd => hl d (List.mem_cons_of_mem _ hd)
    refine ⟨k', ?_, ?_⟩
    · rw [rasterShapes, rasterShape, if_neg (by have := hl c List.mem_cons_self; omega)]
      exact h3
    · rw [h4, h2, List.append_assoc]
      simp [withoutCurves]

theorem shapes_short (hatch : Path → FillHatch → Path) (h : ℕ) : (cs : List FullCmd) → (k : Cairo φ) →
    (∃ c ∈ cs, c.path.length < 2) → rasterShapes hatch h cs k = none
  | [], k, hc => by simp at hc
  | c :: cs, k, hc => by
    rw [rasterShapes, rasterShape]
    split_ifs with hl
    · rfl
    · obtain ⟨d, hd, hs⟩ := hc
      rcases List.mem_cons.1 hd with rfl | hd
      · exact absurd hs hl
      · exact shapes_short hatch h cs _ ⟨d, hd, hs⟩

theorem curveless {ps : List (Paint φ)} (h : ∀ p ∈ ps, withoutCurves [p] = [p]) : withoutCurves ps = ps := by
  induction ps with
  | nil => rfl
  | cons p ps ih =>
    have h1 := h p List.mem_cons_self
    have h2 := ih fun q hq => h q (List.mem_cons_of_mem _ hq)
    simp only [withoutCurves, List.map_cons, List.map_nil, List.cons.injEq, and_true] at h1 h2 ⊢
    exact ⟨h1, h2⟩

theorem shape_curveless (hatch : Path → FillHatch → Path) (h : ℝ) (c : FullCmd) (hs : Straight c.path)
    (hp : ∀ p f, Straight (hatch p f)) (p : Paint φ) (hm : p ∈ (shapePaint hatch h c : List (Paint φ))) :
    withoutCurves [p] = [p] := by
  rw [shapePaint, List.mem_append] at hm
  rcases hm with hm | hm
  · unfold fillPaint at hm
    split at hm
    · rw [List.mem_singleton] at hm
      subst hm
      simp only [withoutCurves, List.map_cons, List.map_nil, List.cons.injEq, and_true, Paint.fill.injEq]
      refine straight_outline _ _ ?_
      split
      · exact hs
      · exact hp _ _
    · simp at hm
  · unfold strokePaint at hm
    split_ifs at hm
    · simp at hm
    · rw [List.mem_singleton] at hm
      subst hm
      simp only [withoutCurves, List.map_cons, List.map_nil, List.cons.injEq, and_true, Paint.stroke.injEq]
      exact straight_outline _ _ hs

theorem groups_ok (sizable : φ → Bool) (h : ℕ) (dpi size : ℝ) (c : Color) : (gs : List (GlyphGroup φ)) → (k : Cairo φ) →
    (∀ g ∈ gs, sizable g.font = true) →
    ∃ k', rasterGroups sizable h dpi size c gs k = some k' ∧ k'.matrix = k.matrix ∧
      k'.painted = k.painted ++ gs.flatMap fun g => g.glyphs.map fun i =>
        .glyph g.font i.1 (k.matrix.apply i.2.x (h - i.2.y)) (unitToPt size dpi) c k.matrix
  | [], k, _ => ⟨k, rfl, rfl, by simp⟩
  | g :: gs, k, hs => by
    obtain ⟨k', h1, h2, h3⟩ := groups_ok sizable h dpi size c gs
      { k with source := c, font := some g.font, fontSize := unitToPt size dpi,
               painted := k.painted ++ g.glyphs.map fun i =>
                 .glyph g.font i.1 (k.matrix.apply i.2.x (h - i.2.y)) (unitToPt size dpi) c k.matrix }
      fun d hd => hs d (List.mem_cons_of_mem _ hd)
    refine ⟨k', ?_, h2, ?_⟩
    · rw [rasterGroups, rasterGroup, if_pos (hs g List.mem_cons_self)]
      exact h1
    · rw [h3, List.append_assoc, List.flatMap_cons]

theorem text_matrix (h : ℕ) (t : Option Mat3) (x y : ℝ) (ht : ∀ m ∈ t, m.g = 0 ∧ m.h = 0 ∧ m.i = 1) :
    (textMatrix h t).apply x (h - y) = onImage h (match t with | some t => (t.apply x y).x | none => x)
      (match t with | some t => (t.apply x y).y | none => y) := by
  cases t with
  | none => simp [textMatrix, cairoIdentity, Mat3.apply, Mat3.mulVec, onImage]
  | some t =>
    obtain ⟨h1, h2, h3⟩ := ht t rfl
    simp only [textMatrix, Mat3.apply, Mat3.mulVec, Mat3.mul, scale2, translate2, Mat3.zero, onImage, h1, h2, h3]
    congr 1 <;> ring

end
end Clip.Raster

namespace Clip
open Raster
noncomputable section
variable {φ : Type}

/-- C108 (exactly what the code does): an image is produced exactly if the size of the page can be converted and every shape
has at least two path commands.  It is as large as the page, rounded down to whole pixels, and shows the background and all the
shapes, in order, each one independently of the others — but upside down at the rounded height, and without the curves. -/
theorem C108_image (hatch : Path → FillHatch → Path) (width height : ℝ) (background : Color) (cs : List FullCmd) (w h : ℕ)
    (painted : List (Paint φ)) :
    pageExportPng hatch width height background cs = .image w h painted ↔
      (-1 < width ∧ width < 2 ^ 32 ∧ ⌊width⌋₊ = w) ∧ (-1 < height ∧ height < 2 ^ 32 ∧ ⌊height⌋₊ = h) ∧
      (∀ c ∈ cs, 2 ≤ c.path.length) ∧ painted = withoutCurves (picture hatch h background cs) := by
  unfold pageExportPng
  constructor
  · intro hx
    split at hx
    · rename_i w' h' hw hh
      rw [toU32_eq] at hw hh
      split at hx
      · rename_i k hk
        injection hx with e1 e2 e3
        subst e1 e2
        have hl : ∀ c ∈ cs, 2 ≤ c.path.length := by
          intro c hc
          by_contra hn
          rw [shapes_short hatch h' cs _ ⟨c, hc, by omega⟩] at hk
          exact absurd hk (by simp)
        refine ⟨⟨hw.1.1, hw.1.2, hw.2⟩, ⟨hh.1.1, hh.1.2, hh.2⟩, hl, ?_⟩
        obtain ⟨k', h1, h2⟩ := shapes_ok hatch h' cs (rasterClear background (newCairo φ)) rfl hl
        rw [h1] at hk
        injection hk with hk
        rw [← e3, ← hk, h2]
        rfl
      · exact absurd hx (by simp)
    · exact absurd hx (by simp)
  · rintro ⟨⟨a1, a2, a3⟩, ⟨b1, b2, b3⟩, hl, rfl⟩
    rw [(toU32_eq width w).2 ⟨⟨a1, a2⟩, a3⟩, (toU32_eq height h).2 ⟨⟨b1, b2⟩, b3⟩]
    obtain ⟨k', h1, h2⟩ := shapes_ok hatch h cs (rasterClear background (newCairo φ)) rfl hl
    dsimp only
    rw [h1]
    dsimp only
    rw [h2]
    rfl

/-- C108: a page of whole height, with shapes without curves: the image shows the background and then exactly what every
shape should paint, in order.  (In full the property is this for all pages and shapes; see `C108_curves` and
`C108_fraction` for what the code does otherwise.) -/
theorem C108_image_partial (hatch : Path → FillHatch → Path) (width : ℝ) (h : ℕ) (background : Color) (cs : List FullCmd)
    (hw : 0 ≤ width ∧ width < 2 ^ 32) (hh : h < 2 ^ 32) (hl : ∀ c ∈ cs, 2 ≤ c.path.length)
    (hs : ∀ c ∈ cs, Straight c.path) (hp : ∀ p f, Straight (hatch p f)) :
    pageExportPng hatch width h background cs =
      (.image ⌊width⌋₊ h (picture hatch h background cs) : ImageResult φ) := by
  rw [C108_image]
  have hn := h.cast_nonneg (α := ℝ)
  refine ⟨⟨by linarith [hw.1], hw.2, rfl⟩, ⟨by linarith, by exact_mod_cast hh, Nat.floor_natCast h⟩, hl, ?_⟩
  symm
  refine curveless fun p hm => ?_
  rw [picture] at hm
  rcases List.mem_cons.1 hm with rfl | hm
  · rfl
  · obtain ⟨c, hc, hm⟩ := List.mem_flatMap.1 hm
    exact shape_curveless hatch h c (hs c hc) hp p hm

/-- C108: a shape with fewer than two path commands makes the whole export fail. -/
theorem C108_short (hatch : Path → FillHatch → Path) (width height : ℝ) (background : Color) (cs : List FullCmd) :
    pageExportPng hatch width height background cs = (.error : ImageResult φ) ↔
      (-1 < width ∧ width < 2 ^ 32) ∧ (-1 < height ∧ height < 2 ^ 32) ∧ ∃ c ∈ cs, c.path.length < 2 := by
  unfold pageExportPng
  constructor
  · intro hx
    split at hx
    · rename_i w' h' hw hh
      rw [toU32_eq] at hw hh
      refine ⟨hw.1, hh.1, ?_⟩
      by_contra hn
      push Not at hn
      obtain ⟨k', h1, -⟩ := shapes_ok hatch h' cs (rasterClear background (newCairo φ)) rfl hn
      rw [h1] at hx
      exact absurd hx (by simp)
    · exact absurd hx (by simp)
  · rintro ⟨h1, h2, h3⟩
    rw [(toU32_eq width _).2 ⟨h1, rfl⟩, (toU32_eq height _).2 ⟨h2, rfl⟩]
    dsimp only
    rw [shapes_short hatch _ cs _ h3]

/-- C108, violated by the code: a curve leaves no trace; a shape that consists of a starting point and curves is filled and
stroked as if it were only the starting point. -/
theorem C108_curves (hatch : Path → FillHatch → Path) (width : ℝ) (h : ℕ) (background : Color) (s : StrokeStyle) (c : Color)
    (x y : ℝ) (curves : Path) (hw : 0 ≤ width ∧ width < 2 ^ 32) (hh : h < 2 ^ 32) (hc : curves ≠ [])
    (hq : ∀ d ∈ curves, (∃ a b x y, d = .quadTo a b x y) ∨ ∃ a b e f x y, d = .cubicTo a b e f x y) (hs : s.width ≠ 0)
    (hd : s.dash = none) :
    pageExportPng hatch width h background [⟨.moveTo x y :: curves, .none, s, ⟨some c, none⟩⟩] =
      (.image ⌊width⌋₊ h [.all background, .fill [.moveTo x (h - y)] c,
        .stroke [.moveTo x (h - y)] s.color s.width (0, []) ⟨1, 0, 0, 0, 1, 0, 0, 0, 1⟩] : ImageResult φ) := by
  rw [C108_image]
  have hn := h.cast_nonneg (α := ℝ)
  refine ⟨⟨by linarith [hw.1], hw.2, rfl⟩, ⟨by linarith, by exact_mod_cast hh, Nat.floor_natCast h⟩, ?_, ?_⟩
  · intro d hm
    rw [List.mem_singleton] at hm
    subst hm
    have := List.length_pos_iff.2 hc
    simp only [List.length_cons]
    omega
  · have e : straight (outline h (.moveTo x y :: curves)) = [.moveTo x (h - y)] := by
      have : straight (outline h curves) = [] := by
        rw [straight, List.filter_eq_nil_iff]
        intro d hm
        rw [outline, List.mem_map] at hm
        obtain ⟨d, hm, rfl⟩ := hm
        rcases hq d hm with ⟨_, _, _, _, rfl⟩ | ⟨_, _, _, _, _, _, rfl⟩ <;> simp
      have e2 : straight (outline h (.moveTo x y :: curves)) = .moveTo x (h - y) :: straight (outline h curves) := rfl
      rw [e2, this]
    simp only [picture, List.flatMap_cons, List.flatMap_nil, List.append_nil, shapePaint, fillPaint, strokePaint, if_neg hs,
      hd, Option.getD_none, withoutCurves, List.map_cons, List.map_nil, List.cons_append, List.nil_append, e]

/-- C108, violated by the code: the height is rounded down to whole pixels before the page is turned upside down, so that on
a page whose height is not whole everything is moved up by the fraction. -/
theorem C108_fraction (hatch : Path → FillHatch → Path) (width height : ℝ) (background : Color) (s : StrokeStyle)
    (x₁ y₁ x₂ y₂ : ℝ) (hw : 0 ≤ width ∧ width < 2 ^ 32) (hh : 0 ≤ height ∧ height < 2 ^ 32) (hs : s.width ≠ 0)
    (hd : s.dash = none) :
    pageExportPng hatch width height background [⟨[.moveTo x₁ y₁, .lineTo x₂ y₂], .none, s, noFill⟩] =
      (.image ⌊width⌋₊ ⌊height⌋₊ [.all background,
        .stroke [.moveTo x₁ (height - y₁ - Int.fract height), .lineTo x₂ (height - y₂ - Int.fract height)]
          s.color s.width (0, []) ⟨1, 0, 0, 0, 1, 0, 0, 0, 1⟩] : ImageResult φ) := by
  rw [C108_image]
  refine ⟨⟨by linarith [hw.1], hw.2, rfl⟩, ⟨by linarith [hh.1], hh.2, rfl⟩, ?_, ?_⟩
  · intro d hm
    rw [List.mem_singleton] at hm
    subst hm
    simp
  · have e : ((⌊height⌋₊ : ℕ) : ℝ) = height - Int.fract height := by
      rw [natCast_floor_eq_intCast_floor hh.1]
      linarith [Int.floor_add_fract height]
    simp only [picture, List.flatMap_cons, List.flatMap_nil, List.append_nil, shapePaint, fillPaint, strokePaint, if_neg hs,
      hd, Option.getD_none, withoutCurves, List.map_cons, List.map_nil, List.nil_append, noFill, outline, straight]
    simp only [List.filter_cons, List.filter_nil, if_true, e]
    rw [sub_right_comm, sub_right_comm height y₂]

/-- C108, violated by the code: of the shapes that are drawn by the program, nothing is painted: the styles of a drawn shape
are moved to where the images do not look for them.  An image shows the background only. -/
theorem C108_background_only (hatch : Path → FillHatch → Path) (width height : ℝ) (background : Color) (cs : List FullCmd)
    (hw : 0 ≤ width ∧ width < 2 ^ 32) (hh : 0 ≤ height ∧ height < 2 ^ 32) (hl : ∀ c ∈ cs, 2 ≤ c.path.length) :
    pageExportPng hatch width height background (cs.map drawnCmd) =
      (.image ⌊width⌋₊ ⌊height⌋₊ [.all background] : ImageResult φ) := by
  rw [C108_image]
  refine ⟨⟨by linarith [hw.1], hw.2, rfl⟩, ⟨by linarith [hh.1], hh.2, rfl⟩, ?_, ?_⟩
  · intro d hm
    obtain ⟨c, hc, rfl⟩ := List.mem_map.1 hm
    exact hl c hc
  · have e : ∀ cs : List FullCmd, (cs.map drawnCmd).flatMap (shapePaint hatch ((⌊height⌋₊ : ℕ) : ℝ)) = ([] : List (Paint φ)) := by
      intro cs
      induction cs with
      | nil => rfl
      | cons c cs ih =>
        rw [List.map_cons, List.flatMap_cons, ih, List.append_nil, shapePaint]
        have h1 : (drawnCmd c).fill.color = none := by
          unfold drawnCmd; dsimp only; split <;> first | assumption | rfl
        have h2 : (drawnCmd c).stroke.width = 0 := by
          unfold drawnCmd; dsimp only; split_ifs <;> first | assumption | rfl
        rw [h1, strokePaint, if_pos h2]
        rfl
    rw [picture, e]
    rfl

/-- C108: text on an image: every glyph is shown, in order, in the colour of the text, at its place — turned by the
transformation of the text, if there is one, on the page, and then upside down. -/
theorem C108_text (sizable : φ → Bool) (h : ℕ) (dpi size : ℝ) (c : Color) (transform : Option Mat3)
    (groups : List (GlyphGroup φ)) (k : Cairo φ) (hs : ∀ g ∈ groups, sizable g.font = true)
    (ht : ∀ t ∈ transform, t.g = 0 ∧ t.h = 0 ∧ t.i = 1) :
    ∃ k' pen, rasterText sizable h dpi size c transform groups k = some k' ∧
      k'.painted = k.painted ++ groups.flatMap fun g => g.glyphs.map fun i =>
        .glyph g.font i.1
          (match transform with
            | some t => onImage h (t.apply i.2.x i.2.y).x (t.apply i.2.x i.2.y).y
            | none => onImage h i.2.x i.2.y)
          (size / dpi * 72) c pen := by
  obtain ⟨k', h1, -, h3⟩ := groups_ok sizable h dpi size c groups { k with matrix := textMatrix h transform } hs
  refine ⟨k', textMatrix h transform, h1, ?_⟩
  rw [h3]
  congr 1
  refine List.flatMap_congr fun g _ => List.map_congr_left fun i _ => ?_
  dsimp only
  rw [text_matrix _ _ _ _ ht]
  cases transform <;> rfl

/-- C108, violated by the code: the size of a text is given to the image in points and not in pixels: a text of `size` pixels
becomes a text of `size` pixels only at 72 dots per inch. -/
theorem C108_text_size (sizable : φ → Bool) (h : ℕ) (dpi size : ℝ) (c : Color) (font : φ) (codepoint : Nat) (p : Vec2) (k : Cairo φ)
    (hs : sizable font = true) (hd : 0 < dpi) (hz : size ≠ 0) :
    (∃ k' q pen, rasterText sizable h dpi size c none [⟨font, [(codepoint, p)]⟩] k = some k' ∧
      k'.painted = k.painted ++ [.glyph font codepoint q size c pen]) ↔ dpi = 72 := by
  obtain ⟨k', pen, h1, h2⟩ := C108_text sizable h dpi size c none [⟨font, [(codepoint, p)]⟩] k (by simpa using hs) (by simp)
  simp only [List.flatMap_cons, List.flatMap_nil, List.map_cons, List.map_nil, List.append_nil] at h2
  constructor
  · rintro ⟨k'', q, pen', h3, h4⟩
    rw [h1] at h3
    injection h3 with h3
    subst h3
    rw [h2] at h4
    have h5 := List.append_cancel_left h4
    simp only [List.cons.injEq, Paint.glyph.injEq, and_true] at h5
    have h6 : size / dpi * 72 = size := h5.2.2.2.1
    field_simp at h6
    linarith
  · rintro rfl
    refine ⟨k', onImage h p.x p.y, pen, h1, ?_⟩
    rw [h2]
    congr 4
    ring

/-- C108, violated by the code: the transformation of a text stays in force for the shapes after it. -/
theorem C108_transform_stays (sizable : φ → Bool) (hatch : Path → FillHatch → Path) (h : ℕ) (dpi size : ℝ) (c : Color) (t : Mat3)
    (ht : t.g = 0 ∧ t.h = 0 ∧ t.i = 1) (k : Cairo φ) (x₁ y₁ x₂ y₂ : ℝ) (col : Color) :
    ∃ k' k'', rasterText sizable h dpi size c (some t) [] k = some k' ∧
      rasterShape hatch h ⟨[.moveTo x₁ y₁, .lineTo x₂ y₂], .none, noStroke, ⟨some col, none⟩⟩ k' = some k'' ∧
      k''.painted = k.painted ++ [.fill [.moveTo (t.apply x₁ y₁).x (h - (t.apply x₁ y₁).y),
        .lineTo (t.apply x₂ y₂).x (h - (t.apply x₂ y₂).y)] col] := by
  refine ⟨_, _, rfl, rfl, ?_⟩
  have h1 := text_matrix h (some t) x₁ y₁ (by simpa using ht)
  have h2 := text_matrix h (some t) x₂ y₂ (by simpa using ht)
  simp only [onImage] at h1 h2
  rw [rasterStroke, if_pos (show noStroke.width = 0 from rfl)]
  show k.painted ++ [Paint.fill [.moveTo ((textMatrix h (some t)).apply x₁ (h - y₁)).x ((textMatrix h (some t)).apply x₁ (h - y₁)).y,
    .lineTo ((textMatrix h (some t)).apply x₂ (h - y₂)).x
    ((textMatrix h (some t)).apply x₂ (h - y₂)).y] col] = _
  rw [h1, h2]

/-! ## Examples -/

/-- A hatched triangle with a dashed outline, and a line. -/
def exShapes : List FullCmd :=
  [⟨[.moveTo 10 10, .lineTo 50 10, .lineTo 30 40, .close], .none, ⟨2, Color.black, some (1, [4, 2])⟩,
      ⟨some ⟨1, 0, 0, 1⟩, some (45, 0, 6, 2)⟩⟩,
   ⟨[.moveTo 0 0, .lineTo 100 60], .none, ⟨1, ⟨0, 0, 1, 1⟩, none⟩, noFill⟩]

theorem exShapes_straight : ∀ c ∈ exShapes, Straight c.path := by
  intro c hc
  simp only [exShapes, List.mem_cons, List.not_mem_nil, or_false] at hc
  rcases hc with rfl | rfl <;> intro d hd <;> simp only [List.mem_cons, List.not_mem_nil, or_false] at hd <;>
    rcases hd with rfl | rfl | rfl | rfl <;> trivial

/-- The hypotheses of `C108_image_partial` hold for these shapes (with a hatching that takes the straight part of the
outline), and a background, a fill and two strokes are painted. -/
example (φ : Type) : ∃ ps, pageExportPng (fun p _ => straight p) 400 (300 : ℕ) ⟨1, 1, 1, 1⟩ exShapes =
    (.image ⌊(400 : ℝ)⌋₊ 300 ps : ImageResult φ) ∧ ps.length = 4 := by
  refine ⟨_, C108_image_partial _ 400 300 ⟨1, 1, 1, 1⟩ exShapes ⟨by norm_num, by norm_num⟩ (by norm_num) ?_
    exShapes_straight ?_, ?_⟩
  · intro c hc
    simp only [exShapes, List.mem_cons, List.not_mem_nil, or_false] at hc
    rcases hc with rfl | rfl <;> simp
  · intro p _ d hd
    have := (List.mem_filter.1 hd).2
    cases d <;> simp_all
  · simp [picture, exShapes, shapePaint, fillPaint, strokePaint, noFill]

end
end Clip
