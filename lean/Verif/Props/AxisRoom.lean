import Verif.Spec.AxisRoom
import Verif.Props.AxisDraw
import Verif.Props.Defaults
set_option linter.unusedSimpArgs false
/-!
# C116: labels and titles of axes stay in the room that is reserved for them
-/
namespace Clip
open AxisSpec Pictures PlotSpec
variable {φ : Type} {P : PlotEnv φ}

namespace AxisRoom

/-! ## Points of changed paths -/

theorem points_on (f : Vec2 → Vec2) (c : PathCmd) : pointsOf (onPoints f c) = (pointsOf c).map f := by
  cases c <;> simp [pointsOf, onPoints]

theorem points_map (f : Vec2 → Vec2) (p : Path) : (p.map (onPoints f)).flatMap pointsOf = (p.flatMap pointsOf).map f := by
  induction p with
  | nil => rfl
  | cons c p ih => rw [List.map_cons, List.flatMap_cons, List.flatMap_cons, List.map_append, ih, points_on]

theorem turned_coords (c : Vec2) (a : ℝ) (q : Vec2) :
    turned c a q = ⟨c.x + ((q.x - c.x) * Real.cos (a * Real.pi / 180) + (q.y - c.y) * Real.sin (a * Real.pi / 180)),
      c.y + ((q.y - c.y) * Real.cos (a * Real.pi / 180) - (q.x - c.x) * Real.sin (a * Real.pi / 180))⟩ := by
  unfold turned
  simp only [Vec2.mk.injEq]
  set t := a * Real.pi / 180 with ht
  have e : Complex.exp (-((t : ℝ) : ℂ) * Complex.I) = ⟨Real.cos t, -Real.sin t⟩ := by
    rw [show (-((t : ℝ) : ℂ) * Complex.I) = (((-t : ℝ) : ℂ) * Complex.I) by push_cast; ring]
    apply Complex.ext
    · rw [Complex.exp_ofReal_mul_I_re, Real.cos_neg]
    · rw [Complex.exp_ofReal_mul_I_im, Real.sin_neg]
  rw [e]
  constructor <;> simp [Complex.mul_re, Complex.mul_im] <;> ring

/-! ## The box of a text -/

/-- The glyphs keep their promises at this size. -/
def Neat (T : TextEnv φ) (sizePt dpi : ℝ) (gs : List (GlyphInfo (φ × Nat))) : Prop := ∀ g ∈ gs,
  0 ≤ g.advance ∧ ∀ p, T.glyphPath g.glyph.1 sizePt dpi g.glyph.2 = some p → ∀ q ∈ p.flatMap pointsOf,
    0 ≤ q.x ∧ q.x ≤ g.advance ∧ g.descender ≤ q.y ∧ q.y ≤ g.ascender

theorem shaped_neat {T : TextEnv φ} (ht : Tidy T) {r : TextRun} {sp dpi : ℝ} {fonts : List φ}
    {gs : List (GlyphInfo (φ × Nat))} (h : Shaped (fun f => T.shapeRun f r sp dpi) fonts gs) : Neat T sp dpi gs := by
  rcases h with ⟨_, rfl⟩ | ⟨_, f, _, _, _, h, _⟩
  · intro g hg; cases hg
  · exact ht _ _ _ _ _ h

theorem typeset_neat {T : TextEnv φ} (ht : Tidy T) {text : Str} {sp dpi : ℝ} {fonts : List φ}
    {gs : List (GlyphInfo (φ × Nat))} (h : Typeset T fonts sp dpi text gs) : Neat T sp dpi gs := by
  obtain ⟨levels, runs, order, shaped, _, _, _, h, rfl⟩ := h
  intro g hg
  obtain ⟨l, hl, hg⟩ := List.mem_flatten.1 hg
  obtain ⟨k, hk, rfl⟩ := List.mem_iff_getElem.1 hl
  have hlen := h.length_eq
  obtain ⟨r, _, hs⟩ := h.get (i := k) (by omega) hk
  exact shaped_neat ht hs g hg

theorem sum_nonneg {ls : List ℝ} (h : ∀ x ∈ ls, 0 ≤ x) : 0 ≤ ls.sum := by
  induction ls with
  | nil => simp
  | cons x ls ih =>
    rw [List.sum_cons]
    have := h x (by simp)
    have := ih fun y hy => h y (by simp [hy])
    linarith

theorem sum_split {ls : List ℝ} (h : ∀ x ∈ ls, 0 ≤ x) {k : Nat} (hk : k < ls.length) :
    0 ≤ (ls.take k).sum ∧ (ls.take k).sum + ls[k] ≤ ls.sum := by
  constructor
  · exact sum_nonneg fun x hx => h x (List.mem_of_mem_take hx)
  · have e : ls.sum = (ls.take k).sum + (ls[k] + (ls.drop (k + 1)).sum) := by
      conv_lhs => rw [← List.take_append_drop k ls, List.sum_append, List.drop_eq_getElem_cons hk, List.sum_cons]
    have : 0 ≤ (ls.drop (k + 1)).sum := sum_nonneg fun x hx => h x (List.mem_of_mem_drop hx)
    linarith

/-- The points of a placed text are in its box. -/
theorem placed_box {T : TextEnv φ} {sp dpi : ℝ} {gs : List (GlyphInfo (φ × Nat))} (hn : Neat T sp dpi gs) {outlines : List Path}
    (ho : List.Forall₂ (fun g p => T.glyphPath g.glyph.1 sp dpi g.glyph.2 = some p) gs outlines) {start : Vec2}
    {style : Compound} {shapes : List DrawCmd} (hp : Pictures.Placed start style gs outlines shapes) {top bottom : ℝ}
    (ht : Top (gs.map (·.ascender)) top) (hb : Bottom (gs.map (·.descender)) bottom) :
    ∀ c ∈ shapes, ∀ q ∈ inked c, start.x ≤ q.x ∧ q.x ≤ start.x + (gs.map (·.advance)).sum ∧
      start.y + bottom ≤ q.y ∧ q.y ≤ start.y + top := by
  obtain ⟨h1, h2, h3⟩ := hp
  intro c hc q hq
  obtain ⟨k, hk, rfl⟩ := List.mem_iff_getElem.1 hc
  have hk1 : k < gs.length := by omega
  have hk2 : k < outlines.length := by omega
  have hs := h3 k outlines[k] (List.getElem?_eq_getElem hk2)
  rw [List.getElem?_eq_getElem hk] at hs
  rw [Option.some.inj hs] at hq
  unfold inked moved at hq
  rw [points_map] at hq
  obtain ⟨p, hp, rfl⟩ := List.mem_map.1 hq
  have hg := hn gs[k] (List.getElem_mem hk1)
  obtain ⟨b1, b2, b3, b4⟩ := hg.2 _ (ho.get (i := k) hk1 hk2) p hp
  have adv : ∀ x ∈ gs.map (·.advance), 0 ≤ x := by
    intro x hx
    obtain ⟨g, hg, rfl⟩ := List.mem_map.1 hx
    exact (hn g hg).1
  have hsum := sum_split adv (k := k) (by simpa using hk1)
  rw [← List.map_take, List.getElem_map] at hsum
  have t := ht.2.2 _ (List.mem_map.2 ⟨gs[k], List.getElem_mem hk1, rfl⟩)
  have b := hb.2.2 _ (List.mem_map.2 ⟨gs[k], List.getElem_mem hk1, rfl⟩)
  simp only
  refine ⟨?_, ?_, ?_, ?_⟩ <;> linarith [hsum.1, hsum.2]

/-! ## Text from left to right is one run -/

theorem one_run {text : Str} (hne : text ≠ []) : IsRuns (List.replicate text.length 0) text [(⟨text, .ltr⟩, 0)] := by
  refine ⟨by simp, by simp, ?_, by simp⟩
  intro r hr
  simp only [List.mem_singleton] at hr
  subst hr
  exact ⟨hne, by simp⟩

theorem typeset_ltr {T : TextEnv φ} (hT : LevelsOfChars T) {text : Str} (hne : text ≠ []) (hl : LeftToRight T text)
    {fonts : List φ} {sp dpi : ℝ} {gs : List (GlyphInfo (φ × Nat))} (h : Typeset T fonts sp dpi text gs) :
    Shaped (fun f => T.shapeRun f ⟨text, .ltr⟩ sp dpi) fonts gs := by
  obtain ⟨levels, runs, order, shaped, h1, h2, h3, h4, rfl⟩ := h
  have e : levels = List.replicate text.length 0 := List.eq_replicate_iff.2 ⟨hT _ _ _ h1, hl _ h1⟩
  subst e
  have := C85_unique _ _ _ _ h2 (one_run hne)
  subst this
  have ho : order = [0] := by
    have := h3.1
    simpa using this
  subst ho
  cases h4 with
  | cons h h' =>
    cases h'
    obtain ⟨r, hr, h⟩ := h
    simp only [List.getElem?_cons_zero, Option.some.injEq] at hr
    subst hr
    simpa using h

/-- The points of a straight text, relative to the point it is aligned to. -/
theorem text_box {T : TextEnv φ} (ht : Tidy T) (hT : LevelsOfChars T) {text : Str} (hne : text ≠ []) (hl : LeftToRight T text)
    {fonts : List φ} {size dpi : ℝ} {point : Vec2} {ax : HAlign} {ay : VAlign} {style : Compound} {shapes : List DrawCmd}
    (h : TextShapes T fonts size dpi text point ax ay style shapes) {w hh : ℝ} (he : Extents T fonts size dpi text w hh) :
    0 ≤ w ∧ 0 ≤ hh ∧ ∃ start : Vec2, ∃ bottom top : ℝ, hh = top - bottom ∧ Aligned start w bottom top point ax ay ∧
      ∀ c ∈ shapes, ∀ q ∈ inked c, start.x ≤ q.x ∧ q.x ≤ start.x + w ∧ start.y + bottom ≤ q.y ∧ q.y ≤ start.y + top := by
  obtain ⟨gs, outlines, start, top, bottom, h1, h2, h3, h4, h5, h6⟩ := h
  obtain ⟨gs', top', bottom', k1, k2, k3, rfl, rfl⟩ := he
  have e := shaped_unique k1 (typeset_ltr hT hne hl h1)
  subst e
  cases top_unique h3 k2
  cases bottom_unique h4 k3
  have hn := typeset_neat ht h1
  refine ⟨sum_nonneg ?_, ?_, start, bottom, top, rfl, h5, placed_box hn h2 h6 h3 h4⟩
  · intro x hx
    obtain ⟨g, hg, rfl⟩ := List.mem_map.1 hx
    exact (hn g hg).1
  · have := h3.2.1; have := h4.2.1; linarith

/-! ## Labels -/

/-- Up or to the right, down or to the left. -/
def way : AxisAlign → ℝ
  | .top | .right => 1
  | .bottom | .left => -1
  | .x | .y => 0

theorem limited_outer {al : AxisAlign} {v : ℝ} (h : Outer al v) : limited v = way al := by
  cases al <;> simp only [Outer, way] at h ⊢ <;> unfold limited <;>
    first
    | (rw [min_eq_left h]; exact max_eq_right (by norm_num))
    | (exact max_eq_left (le_trans (min_le_right _ _) h))

theorem top_room {rs : List ℝ} {t : ℝ} (h : Top rs t) {x : ℝ} (hx : x ∈ rs) : x ≤ t := h.2.2 x hx

theorem label_within {T : TextEnv φ} (ht : Tidy T) (hT : LevelsOfChars T) {a : AxisDef φ} (ha : Proper a) {dpi : ℝ} {r : Rect}
    {l : ℝ × Str} (hl : LeftToRight T l.2) {shapes : List DrawCmd} (h : LabelShapes T a dpi r l shapes) {room : ℝ}
    (hr : Room T a.labelFonts a.labelFontSize dpi a.labelRotate a.align l.2 room) :
    ∀ c ∈ shapes, ∀ q ∈ inked c, labelGap a ≤ outside r a.align q ∧ outside r a.align q ≤ labelGap a + room := by
  obtain ⟨hne, straight, hs, rfl⟩ := h
  obtain ⟨w, hh, he, rfl⟩ := hr
  obtain ⟨hw, hhh, start, bottom, top, e, hal, hb⟩ := text_box ht hT hne hl hs he
  intro c hc q hq
  obtain ⟨c₀, hc₀, rfl⟩ := List.mem_map.1 hc
  unfold inked at hq
  simp only at hq
  rw [points_map] at hq
  obtain ⟨p, hp, rfl⟩ := List.mem_map.1 hq
  obtain ⟨b1, b2, b3, b4⟩ := hb c₀ hc₀ p hp
  rw [ha.straight, turned_zero]
  have hlim := limited_outer ha.labels
  have hf := ha.faces
  have hout := ha.labels
  rw [hf] at hal
  unfold labelPoint at hal
  rw [hlim] at hal
  obtain ⟨a1, a2⟩ := hal
  cases hal : a.align <;> rw [hal] at a1 a2 hout <;>
    simp only [facing, attached, way, across, along, at_, outside, ofSize, turnedSize, if_true, Outer] at a1 a2 hout ⊢ <;>
    first
    | exact hout.elim
    | (constructor <;> linarith)

/-! ## Titles -/

theorem turned_bound {x y w h c s : ℝ} (hx : abs x ≤ w / 2) (hy : abs y ≤ h / 2) :
    abs (x * c + y * s) ≤ (abs (w * c) + abs (h * s)) / 2 := by
  have hw : 0 ≤ w := by linarith [abs_nonneg x]
  have hh : 0 ≤ h := by linarith [abs_nonneg y]
  calc abs (x * c + y * s) ≤ abs (x * c) + abs (y * s) := abs_add_le _ _
    _ = abs x * abs c + abs y * abs s := by rw [abs_mul, abs_mul]
    _ ≤ w / 2 * abs c + h / 2 * abs s :=
      add_le_add (mul_le_mul_of_nonneg_right hx (abs_nonneg _)) (mul_le_mul_of_nonneg_right hy (abs_nonneg _))
    _ = (abs (w * c) + abs (h * s)) / 2 := by rw [abs_mul, abs_mul, abs_of_nonneg hw, abs_of_nonneg hh]; ring

/-- A text turned about its centre is within half its turned size of the centre. -/
theorem turned_box {T : TextEnv φ} (ht : Tidy T) (hT : LevelsOfChars T) {text : Str} (hl : LeftToRight T text)
    {fonts : List φ} {size dpi : ℝ} {point : Vec2} {angle : ℝ} {color : Color} {shapes : List DrawCmd}
    (h : TurnedText T fonts size dpi text point .center .center angle color shapes) {w hh : ℝ}
    (he : Extents T fonts size dpi text w hh) :
    ∀ c ∈ shapes, ∀ q ∈ inked c, abs (q.x - point.x) ≤ (turnedSize w hh angle).1 / 2 ∧
      abs (q.y - point.y) ≤ (turnedSize w hh angle).2 / 2 := by
  obtain ⟨hne, straight, hs, rfl⟩ := h
  obtain ⟨hw, hhh, start, bottom, top, e, ⟨a1, a2⟩, hb⟩ := text_box ht hT hne hl hs he
  simp only at a1 a2
  intro c hc q hq
  obtain ⟨c₀, hc₀, rfl⟩ := List.mem_map.1 hc
  unfold inked at hq
  simp only at hq
  rw [points_map] at hq
  obtain ⟨p, hp, rfl⟩ := List.mem_map.1 hq
  obtain ⟨b1, b2, b3, b4⟩ := hb c₀ hc₀ p hp
  have hx : abs (p.x - point.x) ≤ w / 2 := abs_le.2 ⟨by linarith, by linarith⟩
  have hy : abs (p.y - point.y) ≤ hh / 2 := abs_le.2 ⟨by linarith, by linarith⟩
  unfold turnedSize
  split_ifs with h0
  · rw [h0, turned_zero]; exact ⟨hx, hy⟩
  · rw [turned_coords]
    simp only [add_sub_cancel_left]
    constructor
    · exact turned_bound hx hy
    · have := turned_bound (c := Real.cos (angle * Real.pi / 180)) (s := -Real.sin (angle * Real.pi / 180)) hy hx
      rw [mul_neg, mul_neg, abs_neg, ← sub_eq_add_neg] at this
      linarith

theorem title_within {T : TextEnv φ} (ht : Tidy T) (hT : LevelsOfChars T) {a : AxisDef φ} (ha : Proper a) {dpi : ℝ} {r : Rect}
    (hl : LeftToRight T a.title) {labelRoom room : ℝ} {shapes : List DrawCmd}
    (hr : TitleRoom T a dpi room)
    (h : TurnedText T a.titleFonts a.titleFontSize dpi a.title (titlePoint a r labelRoom room) .center .center a.titleRotate
      a.titleColor shapes) :
    ∀ c ∈ shapes, ∀ q ∈ inked c, titleGap a + labelRoom + labelGap a ≤ outside r a.align q ∧
      outside r a.align q ≤ titleGap a + labelRoom + labelGap a + room := by
  obtain ⟨w, hh, he, rfl⟩ := hr
  have hb := turned_box ht hT hl h he
  intro c hc q hq
  obtain ⟨b1, b2⟩ := hb c hc q hq
  have hout := ha.title
  have hsame : SameSide a := by
    have h1 := ha.labels
    unfold SameSide
    cases hal : a.align <;> rw [hal] at h1 hout <;> simp only [Outer] at h1 hout <;>
      first
      | exact hout.elim
      | (constructor <;> intro _ <;> linarith)
  unfold titlePoint at b1 b2
  rw [limited_outer hout] at b1 b2
  unfold titleDistance at b1 b2
  rw [if_pos hsame] at b1 b2
  rw [abs_le] at b1 b2
  obtain ⟨b1, b1'⟩ := b1
  obtain ⟨b2, b2'⟩ := b2
  cases hal : a.align <;> rw [hal] at b1 b1' b2 b2' hout <;>
    simp only [way, across, along, at_, outside, ofSize, Outer] at b1 b1' b2 b2' hout ⊢ <;>
    first
    | exact hout.elim
    | (constructor <;> linarith)

end AxisRoom

open AxisRoom

/-- C116: no label of an axis with its labels on the outer side comes nearer to the axis than the gap nor reaches beyond the
room that is reserved for labels. -/
theorem C116_labels (T : TextEnv φ) (ht : Tidy T) (hT : LevelsOfChars T) (a : AxisDef φ) (ha : Proper a) (dpi : ℝ) (r : Rect)
    (labels : List (ℝ × Str)) (hl : ∀ l ∈ labels, LeftToRight T l.2) (shapes : List (List DrawCmd))
    (hs : List.Forall₂ (LabelShapes T a dpi r) labels shapes) (room : ℝ) (hr : LabelRoom T a dpi labels room) :
    ∀ c ∈ shapes.flatten, ∀ q ∈ inked c,
      labelGap a ≤ outside r a.align q ∧ outside r a.align q ≤ labelGap a + room := by
  obtain ⟨rooms, hrs, htop⟩ := hr
  intro c hc q hq
  obtain ⟨cs, hcs, hc⟩ := List.mem_flatten.1 hc
  obtain ⟨k, hk, rfl⟩ := List.mem_iff_getElem.1 hcs
  have l1 := hs.length_eq
  have l2 := hrs.length_eq
  have hk1 : k < labels.length := by omega
  have hk2 : k < rooms.length := by omega
  obtain ⟨b1, b2⟩ := label_within ht hT ha (hl _ (List.getElem_mem hk1)) (hs.get (i := k) hk1 hk) (hrs.get (i := k) hk1 hk2)
    c hc q hq
  have := top_room htop (List.getElem_mem hk2)
  rw [List.get_eq_getElem] at b2
  exact ⟨b1, by linarith⟩

/-- C116: the title of an axis, turned by any angle, is beyond the labels and their gap and within its own room. -/
theorem C116_title (T : TextEnv φ) (ht : Tidy T) (hT : LevelsOfChars T) (a : AxisDef φ) (ha : Proper a) (dpi : ℝ) (r : Rect)
    (hl : LeftToRight T a.title) (labelRoom room : ℝ) (hr : TitleRoom T a dpi room) (shapes : List DrawCmd)
    (h : TitleShapesBy a.align T a dpi r labelRoom shapes) :
    ∀ c ∈ shapes, ∀ q ∈ inked c, labelGap a + labelRoom + titleGap a ≤ outside r a.align q ∧
      outside r a.align q ≤ labelGap a + labelRoom + titleGap a + room := by
  rcases h with ⟨_, rfl⟩ | ⟨room', hr', h⟩
  · intro c hc; cases hc
  · have e : room' = room := by
      obtain ⟨w, hh, ⟨g, t, b, k1, k2, k3, rfl, rfl⟩, rfl⟩ := hr
      obtain ⟨w', hh', ⟨g', t', b', j1, j2, j3, rfl, rfl⟩, rfl⟩ := hr'
      cases shaped_unique k1 j1
      cases top_unique k2 j2
      cases bottom_unique k3 j3
      rfl
    subst e
    intro c hc q hq
    obtain ⟨b1, b2⟩ := title_within ht hT ha hl hr h c hc q hq
    constructor <;> linarith

theorem AxisRoom.room_nonneg {T : TextEnv φ} (ht : Tidy T) {fonts : List φ} {size dpi angle : ℝ} {al : AxisAlign} {text : Str}
    {tr : ℝ} (htr : Room T fonts size dpi angle al text tr) : 0 ≤ tr := by
  obtain ⟨w, hh, ⟨g, t, b, k1, k2, k3, rfl, rfl⟩, rfl⟩ := htr
  have hn := shaped_neat ht k1
  have h1 : 0 ≤ (g.map (·.advance)).sum := sum_nonneg fun x hx => by
    obtain ⟨y, hy, rfl⟩ := List.mem_map.1 hx
    exact (hn y hy).1
  have h2 : 0 ≤ t - b := by linarith [k2.2.1, k3.2.1]
  unfold ofSize turnedSize
  cases al <;> simp only <;> split_ifs <;> first | assumption | positivity

/-- The texts on an axis are not written from right to left. -/
def AxisRoom.AllLeftToRight (P : PlotEnv φ) (a : AxisDef φ) (fmt : Formatter) : Prop :=
  LeftToRight P.text a.title ∧ ∀ positions texts, Layout P (labelPlacement a) a.scale fmt positions texts →
    ∀ t ∈ texts, LeftToRight P.text t

/-- C116: the labels and the title of an axis are outside of the plot area, and within the room that is reserved for the
axis. -/
theorem C116_axis (P : PlotEnv φ) (ht : Tidy P.text) (hT : LevelsOfChars P.text) (a : AxisDef φ) (ha : Proper a)
    (fmt : Formatter) (hl : AllLeftToRight P a fmt) (dpi : ℝ) (r : Rect) (room : ℝ) (hr : Reserved P a fmt dpi room)
    (shapes : List DrawCmd) (hs : Shown P a fmt dpi r shapes) : TextsWithin a.align r room shapes := by
  rcases hs with ⟨_, rfl⟩ | ⟨hen, hs⟩
  · exact ⟨[], [], rfl, by simp, by simp⟩
  · rcases hr with ⟨hr, _⟩ | ⟨_, ps', ts', lr', g1, g2, g3, g4⟩
    · rw [hen] at hr; cases hr
    · obtain ⟨ticks, tts, ps, ts, lr, labels, title, h1, h2, h3, h4, h5, h6, rfl⟩ := hs
      obtain ⟨rfl, rfl⟩ := layout_unique h2 g1
      obtain rfl : lr' = lr := (labelRoom_unique h4 g3).symm
      have hlab := C116_labels P.text ht hT a ha dpi r _ (fun l hm => hl.2 _ _ h2 _ (List.of_mem_zip hm).2) labels h5 _ h4
      have hlr := h4.elim fun _ h => h.2.2.1
      refine ⟨line a.border (along r a.align 0) (along r a.align 1) :: ticks.map (tick a dpi r), labels.flatten ++ title,
        by simp, ?_, ?_⟩
      · intro c hc
        rcases List.mem_cons.1 hc with rfl | hc
        · exact ⟨_, _, _, rfl⟩
        · obtain ⟨u, _, rfl⟩ := List.mem_map.1 hc
          exact ⟨_, _, _, rfl⟩
      · have := ha.gap
        have := ha.titleGap
        rcases g4 with ⟨hte, rfl⟩ | ⟨hte, tr, htr, rfl⟩
        · rcases h6 with ⟨_, rfl⟩ | ⟨_, _, h6, _⟩
          · intro c hc q hq
            rw [List.append_nil] at hc
            obtain ⟨b1, b2⟩ := hlab c hc q hq
            constructor <;> linarith
          · exact absurd hte h6
        · have htitle := C116_title P.text ht hT a ha dpi r hl.1 _ tr htr title h6
          have htr0 := room_nonneg ht htr
          intro c hc q hq
          rcases List.mem_append.1 hc with hc | hc
          · obtain ⟨b1, b2⟩ := hlab c hc q hq
            constructor <;> linarith
          · obtain ⟨b1, b2⟩ := htitle c hc q hq
            constructor <;> linarith

theorem AxisRoom.reserved_nonneg {P : PlotEnv φ} (ht : Tidy P.text) {a : AxisDef φ} (ha : Proper a) {fmt : Formatter}
    {dpi room : ℝ} (hr : Reserved P a fmt dpi room) : 0 ≤ room := by
  have g1 := ha.gap
  have g2 := ha.titleGap
  rcases hr with ⟨_, rfl⟩ | ⟨_, _, _, lr, _, _, hl, h⟩
  · exact le_rfl
  · have hlr : 0 ≤ lr := by obtain ⟨_, _, h⟩ := hl; exact h.2.1
    rcases h with ⟨_, rfl⟩ | ⟨_, tr, htr, rfl⟩
    · linarith
    · have := room_nonneg ht htr
      linarith

/-- C116: the labels and titles of the four axes are outside of the area that remains for the plot, and inside the area
that the plot had before, without the margins, if that is large enough for the axes. -/
theorem C116_axes (P : PlotEnv φ) (ht : Tidy P.text) (hT : LevelsOfChars P.text) (s s' : PlotState φ)
    (hp : (s.env P).palette ≠ []) (args : List Expr) (c : AxesConf φ) (hc : axesConfigure P s args = .ok c)
    (hproper : Proper c.top ∧ Proper c.right ∧ Proper c.bottom ∧ Proper c.left)
    (hl : AllLeftToRight P c.top (c.top.formatter P) ∧ AllLeftToRight P c.right (c.right.formatter P) ∧
      AllLeftToRight P c.bottom (c.bottom.formatter P) ∧ AllLeftToRight P c.left (c.left.formatter P))
    (h : axesCmd P args s = (s', none)) (hfit : 0 < s'.clip.w ∧ 0 < s'.clip.h) (outer : Rect)
    (ho : outer = inset s.clip c.margins.1 c.margins.2.1 c.margins.2.2.1 c.margins.2.2.2) :
    ∃ top right bottom left, s'.layer = draw s.layer (top ++ right ++ bottom ++ left) ∧
      TextsBetween .top outer s'.clip top ∧ TextsBetween .right outer s'.clip right ∧
      TextsBetween .bottom outer s'.clip bottom ∧ TextsBetween .left outer s'.clip left := by
  obtain ⟨t, r, b, l, area, dt, dr, db, dl, ha, ⟨r1, s1⟩, ⟨r2, s2⟩, ⟨r3, s3⟩, ⟨r4, s4⟩, e, hclip⟩ :=
    (C91_axes P hT s s' hp args c hc).1 h
  obtain ⟨a1, a2, a3, a4⟩ := axes_sides hp hc
  obtain ⟨p1, p2, p3, p4⟩ := hproper
  obtain ⟨l1, l2, l3, l4⟩ := hl
  have w1 := C116_axis P ht hT _ p1 _ l1 _ _ _ r1 _ s1
  have w2 := C116_axis P ht hT _ p2 _ l2 _ _ _ r2 _ s2
  have w3 := C116_axis P ht hT _ p3 _ l3 _ _ _ r3 _ s3
  have w4 := C116_axis P ht hT _ p4 _ l4 _ _ _ r4 _ s4
  have n1 := reserved_nonneg ht p1 r1
  have n2 := reserved_nonneg ht p2 r2
  have n3 := reserved_nonneg ht p3 r3
  have n4 := reserved_nonneg ht p4 r4
  rw [hclip] at hfit ⊢
  rw [a1] at w1; rw [a2] at w2; rw [a3] at w3; rw [a4] at w4
  refine ⟨dt, dr, db, dl, by rw [e], ?_, ?_, ?_, ?_⟩
  all_goals
    subst ho
    have hw : 0 < s.clip.w - (c.margins.2.2.2 + l) - (c.margins.2.1 + r) := by
      by_contra hn
      rw [ha] at hfit
      simp only [inset] at hfit
      rw [max_eq_right (not_lt.1 hn)] at hfit
      exact lt_irrefl _ hfit.1
    have hh : 0 < s.clip.h - (c.margins.1 + t) - (c.margins.2.2.1 + b) := by
      by_contra hn
      rw [ha] at hfit
      simp only [inset] at hfit
      rw [max_eq_right (not_lt.1 hn)] at hfit
      exact lt_irrefl _ hfit.2
    have hw' : 0 ≤ s.clip.w - c.margins.2.2.2 - c.margins.2.1 := by linarith
    have hh' : 0 ≤ s.clip.h - c.margins.1 - c.margins.2.2.1 := by linarith
  · obtain ⟨ls, ts, e, h1, h2⟩ := w1
    refine ⟨ls, ts, e, h1, fun k hk q hq => ⟨(h2 k hk q hq).1, ?_⟩⟩
    have := (h2 k hk q hq).2
    rw [ha] at this
    simp only [outside, inset, max_eq_left hw.le, max_eq_left hh.le, max_eq_left hw', max_eq_left hh'] at this ⊢
    linarith
  · obtain ⟨ls, ts, e, h1, h2⟩ := w2
    refine ⟨ls, ts, e, h1, fun k hk q hq => ⟨(h2 k hk q hq).1, ?_⟩⟩
    have := (h2 k hk q hq).2
    rw [ha] at this
    simp only [outside, inset, max_eq_left hw.le, max_eq_left hh.le, max_eq_left hw', max_eq_left hh'] at this ⊢
    linarith
  · obtain ⟨ls, ts, e, h1, h2⟩ := w3
    refine ⟨ls, ts, e, h1, fun k hk q hq => ⟨(h2 k hk q hq).1, ?_⟩⟩
    have := (h2 k hk q hq).2
    rw [ha] at this
    simp only [outside, inset, max_eq_left hw.le, max_eq_left hh.le, max_eq_left hw', max_eq_left hh'] at this ⊢
    linarith
  · obtain ⟨ls, ts, e, h1, h2⟩ := w4
    refine ⟨ls, ts, e, h1, fun k hk q hq => ⟨(h2 k hk q hq).1, ?_⟩⟩
    have := (h2 k hk q hq).2
    rw [ha] at this
    simp only [outside, inset, max_eq_left hw.le, max_eq_left hh.le, max_eq_left hw', max_eq_left hh'] at this ⊢
    linarith

/-- C116: without options, labels and titles are on the outer side. -/
theorem C116_defaults (s : PlotState φ) (hs : 0 ≤ Defaults.em s) :
    Proper (Defaults.axes s).top ∧ Proper (Defaults.axes s).right ∧ Proper (Defaults.axes s).bottom ∧
      Proper (Defaults.axes s).left := by
  refine ⟨⟨?_, ?_, rfl, rfl, ?_, ?_⟩, ⟨?_, ?_, rfl, rfl, ?_, ?_⟩, ⟨?_, ?_, rfl, rfl, ?_, ?_⟩, ⟨?_, ?_, rfl, rfl, ?_, ?_⟩⟩ <;>
    simp [Defaults.axes, Defaults.axis, Outer, Defaults.outward, labelGap, titleGap, orElse, Defaults.noLength, Horizontal] <;>
    linarith

/-- C116, violated by the code: a label on the bottom axis that is turned by 90 degrees is turned about the middle of its
upper edge, and the half of it that comes to be above reaches into the plot area, if it is longer than the gap. -/
theorem C116_turned_label (T : TextEnv φ) (a : AxisDef φ) (dpi : ℝ) (r : Rect) (l : ℝ × Str) (shapes : List DrawCmd)
    (ha : a.align = .bottom ∧ a.labelAttach = .top ∧ a.labelOffset = -1 ∧ a.labelRotate = 90)
    (h : LabelShapes T a dpi r l shapes) :
    ∃ straight : List DrawCmd, TextShapes T a.labelFonts a.labelFontSize dpi l.2 (labelPoint a r l.1) .center .top
        ⟨[a.labelColor], [], [], []⟩ straight ∧
      ∀ c ∈ straight, ∀ q ∈ inked c, q.x < (labelPoint a r l.1).x - labelGap a →
        ∃ c' ∈ shapes, ∃ q' ∈ inked c', outside r .bottom q' < 0 := by
  obtain ⟨a1, a2, a3, a4⟩ := ha
  obtain ⟨hne, straight, hs, rfl⟩ := h
  refine ⟨straight, by rw [a2] at hs; exact hs, ?_⟩
  intro c hc q hq hlt
  refine ⟨_, List.mem_map.2 ⟨c, hc, rfl⟩, turned (labelPoint a r l.1) a.labelRotate q, ?_, ?_⟩
  · unfold inked
    rw [points_map]
    exact List.mem_map.2 ⟨q, hq, rfl⟩
  · rw [turned_coords, a4, show (90 : ℝ) * Real.pi / 180 = Real.pi / 2 by ring, Real.cos_pi_div_two, Real.sin_pi_div_two]
    have hy : (labelPoint a r l.1).y = r.y - labelGap a := by
      unfold labelPoint
      rw [a1, a3]
      simp [across, along, at_, limited]
      ring
    simp only [outside]
    rw [hy]
    linarith

/-! ## Concrete cases -/

namespace AxisRoom

/-- A font with a slanted stroke for every character, and no right-to-left text. -/
noncomputable def strokes : TextEnv Unit where
  loadFont := fun _ => some ()
  levels := fun _ t => some (t.map fun _ => 0)
  shapeRun := fun _ r s _ => some (r.text.map fun c => ⟨((), c.toNat + 1), |s|, |s|, 0⟩)
  glyphPath := fun _ s _ _ => some [.moveTo 0 0, .lineTo |s| |s|]

theorem strokes_levels : LevelsOfChars strokes := by
  intro dir text levels h
  simp only [strokes, Option.some.injEq] at h
  subst h
  simp

theorem strokes_tidy : Tidy strokes := by
  intro f run s dpi gs h g hg
  simp only [strokes, Option.some.injEq] at h
  subst h
  obtain ⟨c, _, rfl⟩ := List.mem_map.1 hg
  refine ⟨abs_nonneg _, ?_⟩
  intro p hp q hq
  simp only [strokes, Option.some.injEq] at hp
  subst hp
  simp only [List.flatMap_cons, pointsOf, List.flatMap_nil, List.append_nil, List.cons_append, List.nil_append, List.mem_cons,
    List.not_mem_nil, or_false] at hq
  rcases hq with rfl | rfl
  · exact ⟨le_rfl, abs_nonneg _, le_rfl, abs_nonneg _⟩
  · exact ⟨abs_nonneg _, le_rfl, abs_nonneg _, le_rfl⟩

theorem strokes_ltr (t : Str) : LeftToRight strokes t := by
  intro levels h l hl
  simp only [strokes, Option.some.injEq] at h
  subst h
  obtain ⟨c, _, rfl⟩ := List.mem_map.1 hl
  rfl

/-- An axis at the bottom with labels of the size 1 that are turned by `angle`. -/
noncomputable def sample (angle : ℝ) : AxisDef Unit where
  align := .bottom
  titleOffset := -1
  titleFonts := [()]
  titleFontSize := 1
  labelOffset := -1
  labelRotate := angle
  labelFonts := [()]
  labelFontSize := 1
  border := StrokeState.default

theorem sample_proper : Proper (sample 0) := by
  refine ⟨?_, ?_, rfl, rfl, ?_, ?_⟩ <;> simp [sample, Outer, labelGap, titleGap, orElse, Horizontal] <;> norm_num

/-- The glyphs of the sample label. -/
noncomputable def glyphs4 : List (GlyphInfo (Unit × Nat)) :=
  [⟨((), 50), |1|, |1|, 0⟩, ⟨((), 49), |1|, |1|, 0⟩, ⟨((), 49), |1|, |1|, 0⟩, ⟨((), 49), |1|, |1|, 0⟩]

theorem label_straight (r : Rect) (angle : ℝ) : ∃ straight, TextShapes strokes [()] 1 72 ['1', '0', '0', '0']
    (labelPoint (sample angle) r 0) .center .top ⟨[Color.black], [], [], []⟩ straight ∧
    ∃ c ∈ straight, ∃ q ∈ inked c, q.x = (labelPoint (sample angle) r 0).x - 2 := by
  have e1 : (1 : ℝ) / 72 * 72 = 1 := by norm_num
  set p := labelPoint (sample angle) r 0 with hp
  refine ⟨((List.range 4).map fun k => ⟨moved ⟨p.x - 2 + ((glyphs4.take k).map (·.advance)).sum, p.y - 1⟩
      [.moveTo 0 0, .lineTo |1| |1|], ⟨[Color.black], [], [], []⟩, false⟩), ⟨glyphs4,
    List.replicate 4 [.moveTo 0 0, .lineTo |1| |1|], ⟨p.x - 2, p.y - 1⟩, 1, 0, ?_, ?_, ?_, ?_, ?_, ?_⟩, ?_⟩
  · rw [e1]
    refine ⟨[0, 0, 0, 0], [(⟨['1', '0', '0', '0'], .ltr⟩, 0)], [0], [glyphs4], rfl,
      ⟨rfl, rfl, by simp, by simp⟩, ⟨List.Perm.refl _, ?_⟩, .cons ⟨_, rfl, .inr ⟨[], (), [], rfl, by simp, rfl, .inl rfl⟩⟩ .nil,
      rfl⟩
    intro i j m h1 h2
    simp at h2
    omega
  · rw [e1]
    exact .cons rfl (.cons rfl (.cons rfl (.cons rfl .nil)))
  · simp [Pictures.Top, glyphs4]
  · simp [Pictures.Bottom, glyphs4]
  · simp only [Aligned, glyphs4, List.map_cons, List.map_nil, List.sum_cons, List.sum_nil, abs_one]
    constructor <;> linarith
  · refine ⟨rfl, rfl, ?_⟩
    intro k q hk
    have hk4 : k < 4 := by
      by_contra hn
      rw [List.getElem?_eq_none (by simpa using hn)] at hk
      cases hk
    rw [List.getElem?_replicate, if_pos hk4] at hk
    cases hk
    rw [List.getElem?_map, List.getElem?_range hk4]
    rfl
  · refine ⟨_, List.mem_map.2 ⟨0, by simp, rfl⟩, ⟨p.x - 2, p.y - 1⟩, ?_, rfl⟩
    simp [inked, moved, onPoints, pointsOf]

/-- The room for the label 1000 is its height. -/
theorem label_room : Room strokes [()] 1 72 0 .bottom ['1', '0', '0', '0'] 1 := by
  refine ⟨4, 1, ⟨glyphs4, 1, 0, .inr ⟨[], (), [], rfl, by simp, ?_, .inl rfl⟩, ?_, ?_, ?_, ?_⟩, ?_⟩
  · rw [show (1 : ℝ) / 72 * 72 = 1 by norm_num]; rfl
  · simp [Pictures.Top, glyphs4]
  · simp [Pictures.Bottom, glyphs4]
  · simp [glyphs4]; norm_num
  · norm_num
  · simp [ofSize, turnedSize]

/-- The label 1000 of the sample axis is drawn, and is between 0.8 and 1.8 below the axis. -/
example (r : Rect) : ∃ shapes, LabelShapes strokes (sample 0) 72 r (0, ['1', '0', '0', '0']) shapes ∧ shapes ≠ [] ∧
    ∀ c ∈ shapes, ∀ q ∈ inked c, 0.8 ≤ outside r .bottom q ∧ outside r .bottom q ≤ 1.8 := by
  obtain ⟨st, h, c, hc, _⟩ := label_straight r 0
  have hs : LabelShapes strokes (sample 0) 72 r (0, ['1', '0', '0', '0'])
      (st.map fun c => { c with path := c.path.map (onPoints (turned (labelPoint (sample 0) r 0) (sample 0).labelRotate)) }) :=
    ⟨by simp, st, h, rfl⟩
  refine ⟨_, hs, ?_, ?_⟩
  · intro e
    rw [List.map_eq_nil_iff] at e
    subst e
    cases hc
  · intro c hc q hq
    have := C116_labels strokes strokes_tidy strokes_levels (sample 0) sample_proper 72 r [(0, ['1', '0', '0', '0'])]
      (fun l _ => strokes_ltr l.2) _ (.cons hs .nil) 1 ⟨[1], .cons label_room .nil, by simp, by norm_num, by simp⟩ c
      (by simpa using hc) q hq
    have e : labelGap (sample 0) = 0.8 := by simp [labelGap, orElse, sample]
    rw [e] at this
    have h2 := this.2
    exact ⟨this.1, by norm_num at h2 ⊢; exact h2⟩

/-- Turned by 90 degrees, it reaches into the plot area. -/
example (r : Rect) : ∃ shapes, LabelShapes strokes (sample 90) 72 r (0, ['1', '0', '0', '0']) shapes ∧
    ∃ c' ∈ shapes, ∃ q' ∈ inked c', outside r .bottom q' < 0 := by
  obtain ⟨st, h, c, hc, q, hq, e⟩ := label_straight r 90
  have hs : LabelShapes strokes (sample 90) 72 r (0, ['1', '0', '0', '0'])
      (st.map fun c => { c with path := c.path.map (onPoints (turned (labelPoint (sample 90) r 0) (sample 90).labelRotate)) }) :=
    ⟨by simp, st, h, rfl⟩
  obtain ⟨st', h', hall⟩ := C116_turned_label strokes (sample 90) 72 r _ _ ⟨rfl, rfl, rfl, rfl⟩ hs
  have e' := C82_unique _ _ _ _ _ _ _ _ _ _ _ h h'
  subst e'
  refine ⟨_, hs, hall c hc q hq ?_⟩
  have g : labelGap (sample 90) = 0.8 := by simp [labelGap, orElse, sample]
  rw [e, g]
  norm_num

end AxisRoom

end Clip
