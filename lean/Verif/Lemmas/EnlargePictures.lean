import Verif.Spec.Enlarge
import Mathlib.Tactic.Ring
import Mathlib.Tactic.FieldSimp
import Mathlib.Tactic.Linarith
import Mathlib.Tactic.Positivity
set_option linter.unusedSimpArgs false
/-! # Larger pictures of elements -/
namespace Clip.Enlarge
open Settings Drawing Pictures PlotSpec AxisSpec DataSpec Elements Options LegendSpec
noncomputable section
variable {φ : Type} {k : ℝ}

/-- A measure. -/
def measure (k : ℝ) (m : Measure) : Measure := ⟨m.unit, k * m.value⟩

def stroke (k : ℝ) (s : StrokeState) : StrokeState := ⟨k * s.width, s.color, s.dashed, measure k s.offset, s.pattern.map (measure k)⟩

def fill (k : ℝ) (f : FillStyle) : FillStyle := ⟨f.color, f.hatch.map fun h => (h.1, k * h.2.1, k * h.2.2.1, k * h.2.2.2)⟩

def rect (k : ℝ) (r : Rect) : Rect := ⟨k * r.x, k * r.y, k * r.w, k * r.h⟩

theorem at_big (r : Rect) (u v : ℝ) : at_ (rect k r) u v = point k (at_ r u v) := by
  unfold at_ rect point; ext <;> simp only <;> ring

theorem polyline_big (vs : List Vec2) : polyline (vs.map (point k)) = path k (polyline vs) := by
  cases vs with
  | nil => rfl
  | cons v vs =>
    show PathCmd.moveTo _ _ :: _ = PathCmd.moveTo _ _ :: _
    rw [List.map_map, List.map_map]; rfl

theorem path_append (p q : Path) : path k (p ++ q) = path k p ++ path k q := List.map_append

theorem ring_big (vs : List Vec2) : ring (vs.map (point k)) = path k (ring vs) := by
  unfold ring; rw [polyline_big, path_append]; rfl

theorem series_big (r : Rect) (ps : List (ℝ × ℝ)) : seriesPath (rect k r) ps = path k (seriesPath r ps) := by
  unfold seriesPath
  rw [← polyline_big, List.map_map]
  refine congrArg polyline (List.map_congr_left fun p _ => at_big _ _ _)

theorem circle_big (o : Vec2) (r : ℝ) : pathAddCircle [] (point k o) (k * r) = path k (pathAddCircle [] o r) := by
  unfold pathAddCircle path point
  simp only [List.nil_append, List.map_cons, List.map_nil, onPoints]
  simp only [mul_sub, mul_add, mul_assoc]

theorem styled_big (hk : k ≠ 0) (s : StrokeState) (f : FillStyle) : styled (stroke k s) (fill k f) = style k (styled s f) := by
  rcases f with ⟨_ | c, _ | ⟨a, b, c, d⟩⟩ <;> (
    unfold styled stroke fill style
    simp only [ne_eq, mul_eq_zero, hk, false_or, Option.map_none, Option.map_some, List.map_cons, List.map_nil, List.map_map]
    congr 1 <;> split_ifs <;> simp [measure, Function.comp_def])

theorem fill_default : fill k .default = .default := rfl

/-- The part is `k` times as large in the second picture. -/
def Grow (k : ℝ) (p q : List DrawCmd → Prop) : Prop := ∀ shapes, p shapes → q (shapes.map (shape k))

theorem order_big {ps qs : List (List DrawCmd → Prop)} (h : List.Forall₂ (Grow k) ps qs) : Grow k (InOrder ps) (InOrder qs) := by
  rintro shapes ⟨pictures, hp, rfl⟩
  refine ⟨pictures.map (List.map (shape k)), ?_, by rw [List.map_flatten]⟩
  clear * - h hp
  induction h generalizing pictures with
  | nil => cases hp; exact .nil
  | cons h _ ih =>
    cases hp with
    | cons hp hps => exact .cons (h _ hp) (ih _ hps)

theorem grow_map {α : Type} {F G : α → List DrawCmd → Prop} {l : List α} (h : ∀ x ∈ l, Grow k (F x) (G x)) :
    List.Forall₂ (Grow k) (l.map F) (l.map G) := by
  induction l with
  | nil => exact .nil
  | cons x l ih => exact .cons (h x (.head _)) (ih fun y hy => h y (.tail _ hy))

theorem grow_mapIdx {α : Type} {F G : Nat → α → List DrawCmd → Prop} {l : List α} (h : ∀ i, ∀ x ∈ l, Grow k (F i x) (G i x)) :
    List.Forall₂ (Grow k) (l.mapIdx F) (l.mapIdx G) := by
  induction l generalizing F G with
  | nil => exact .nil
  | cons x l ih =>
    rw [List.mapIdx_cons, List.mapIdx_cons]
    exact .cons (h 0 x (.head _)) (ih fun i y hy => h (i + 1) y (.tail _ hy))

theorem grow_append {ps qs ps' qs' : List (List DrawCmd → Prop)} (h : List.Forall₂ (Grow k) ps qs)
    (h' : List.Forall₂ (Grow k) ps' qs') : List.Forall₂ (Grow k) (ps ++ ps') (qs ++ qs') := List.rel_append h h'

theorem grow_shape (hk : k ≠ 0) (s : StrokeState) (f : FillStyle) (p : Path) :
    Grow k (Shape s f p) (Shape (stroke k s) (fill k f) (path k p)) := by
  rintro _ rfl
  show [_] = [_]
  rw [styled_big hk]; rfl

theorem grow_filled (c : Color) (p : Path) : Grow k (Filled c p) (Filled c (path k p)) := by rintro _ rfl; rfl

theorem grow_line (hk : k ≠ 0) (w : ℝ) (c : Color) (p : Path) : Grow k (Line w c p) (Line (k * w) c (path k p)) := by
  rintro _ rfl
  show [_] = [_]
  unfold shape style
  by_cases h : w = 0
  · simp [h]
  · simp [h, hk]

theorem top_big (hk : 0 < k) {vs : List ℝ} {t : ℝ} (h : Pictures.Top vs t) : Pictures.Top (vs.map (k * ·)) (k * t) := by
  refine ⟨h.1.imp (fun h => by rw [h, mul_zero]) (fun h => List.mem_map_of_mem h), mul_nonneg hk.le h.2.1, ?_⟩
  intro v hv
  obtain ⟨u, hu, rfl⟩ := List.mem_map.1 hv
  exact mul_le_mul_of_nonneg_left (h.2.2 u hu) hk.le

theorem bottom_big (hk : 0 < k) {vs : List ℝ} {t : ℝ} (h : Bottom vs t) : Bottom (vs.map (k * ·)) (k * t) := by
  refine ⟨h.1.imp (fun h => by rw [h, mul_zero]) (fun h => List.mem_map_of_mem h), mul_nonpos_of_nonneg_of_nonpos hk.le h.2.1, ?_⟩
  intro v hv
  obtain ⟨u, hu, rfl⟩ := List.mem_map.1 hv
  exact mul_le_mul_of_nonneg_left (h.2.2 u hu) hk.le

theorem sum_big (vs : List ℝ) : (vs.map (k * ·)).sum = k * vs.sum := by
  induction vs with
  | nil => simp
  | cons v vs ih => rw [List.map_cons, List.sum_cons, ih, List.sum_cons, mul_add]

def glyph (k : ℝ) {γ : Type} (g : GlyphInfo γ) : GlyphInfo γ := ⟨g.glyph, k * g.advance, k * g.ascender, k * g.descender⟩

theorem shaped_big {run run' : φ → Option (List (GlyphInfo (φ × Nat)))} (hr : ∀ f, run' f = (run f).map fun gs => gs.map (glyph k))
    {fonts : List φ} {gs : List (GlyphInfo (φ × Nat))} (h : Shaped run fonts gs) : Shaped run' fonts (gs.map (glyph k)) := by
  rcases h with ⟨h1, rfl⟩ | ⟨before, f, after, h1, h2, h3, h4⟩
  · exact .inl ⟨h1, rfl⟩
  · refine .inr ⟨before, f, after, h1, ?_, by rw [hr, h3]; rfl, h4.imp id ?_⟩
    · intro f' hf'
      obtain ⟨gs', h5, g, h6, h7⟩ := h2 f' hf'
      exact ⟨gs'.map (glyph k), by rw [hr, h5]; rfl, glyph k g, List.mem_map_of_mem h6, h7⟩
    · intro h g hg
      obtain ⟨u, hu, rfl⟩ := List.mem_map.1 hg
      exact h u hu

theorem typeset_big {T : TextEnv φ} (hT : ScalableFonts T k) {fonts : List φ} {size dpi : ℝ} {text : Str}
    {gs : List (GlyphInfo (φ × Nat))} (h : Typeset T fonts size dpi text gs) :
    Typeset T fonts size (k * dpi) text (gs.map (glyph k)) := by
  obtain ⟨levels, runs, order, shaped, h1, h2, h3, h4, rfl⟩ := h
  refine ⟨levels, runs, order, shaped.map (List.map (glyph k)), h1, h2, h3, ?_, by rw [List.map_flatten]⟩
  rw [List.forall₂_map_right_iff]
  refine h4.imp ?_
  rintro i gs ⟨r, h5, h6⟩
  exact ⟨r, h5, shaped_big (fun f => hT.shape f r.1 size dpi) h6⟩

theorem points_size (hk : k ≠ 0) (size dpi : ℝ) : k * size / (k * dpi) * 72 = size / dpi * 72 := by
  rw [mul_div_mul_left _ _ hk]

theorem advance_big {γ : Type} (gs : List (GlyphInfo γ)) : (gs.map (glyph k)).map (·.advance) = (gs.map (·.advance)).map (k * ·) := by
  rw [List.map_map, List.map_map]; rfl

theorem moved_big (v : Vec2) (p : Path) : moved (point k v) (path k p) = path k (moved v p) := by
  unfold moved path
  rw [List.map_map, List.map_map]
  refine List.map_congr_left fun c _ => ?_
  cases c <;> simp only [Function.comp_apply, onPoints, point, mul_add]

theorem placed_big {γ : Type} {start : Vec2} {st : Compound} (hs : style k st = st) {gs : List (GlyphInfo γ)} {outlines : List Path}
    {shapes : List DrawCmd} (h : Pictures.Placed start st gs outlines shapes) :
    Pictures.Placed (point k start) st (gs.map (glyph k)) (outlines.map (path k)) (shapes.map (shape k)) := by
  obtain ⟨h1, h2, h3⟩ := h
  refine ⟨by simp [h1], by simp [h2], ?_⟩
  intro i p hp
  rw [List.getElem?_map] at hp
  obtain ⟨q, hq, rfl⟩ := Option.map_eq_some_iff.1 hp
  rw [List.getElem?_map, h3 i q hq, ← List.map_take, advance_big, sum_big]
  simp only [Option.map_some, shape, hs]
  rw [← moved_big]
  simp only [point, mul_add]

theorem textShapes_big (hk : 0 < k) {T : TextEnv φ} (hT : ScalableFonts T k) {fonts : List φ} {size dpi : ℝ} {text : Str}
    {p : Vec2} {ax : HAlign} {ay : VAlign} {st : Compound} (hs : style k st = st) {shapes : List DrawCmd}
    (h : TextShapes T fonts size dpi text p ax ay st shapes) :
    TextShapes T fonts (k * size) (k * dpi) text (point k p) ax ay st (shapes.map (shape k)) := by
  obtain ⟨gs, os, start, top, bottom, h1, h2, h3, h4, h5, h6⟩ := h
  have e := points_size hk.ne' size dpi
  refine ⟨gs.map (glyph k), os.map (path k), point k start, k * top, k * bottom, ?_, ?_, ?_, ?_, ?_, placed_big hs h6⟩
  · rw [e]; exact typeset_big hT h1
  · rw [e, List.forall₂_map_left_iff, List.forall₂_map_right_iff]
    refine h2.imp fun g p hg => ?_
    show T.glyphPath g.glyph.1 _ _ g.glyph.2 = _
    rw [hT.outline, hg]; rfl
  · have := top_big hk h3
    rw [List.map_map] at this ⊢
    exact this
  · have := bottom_big hk h4
    rw [List.map_map] at this ⊢
    exact this
  · rw [advance_big, sum_big]
    obtain ⟨hx, hy⟩ := h5
    constructor
    · cases ax <;> simp only [point] at hx ⊢ <;> rw [← hx] <;> ring
    · cases ay <;> simp only [point] at hy ⊢ <;> rw [← hy] <;> ring

theorem grow_text (hk : 0 < k) {T : TextEnv φ} (hT : ScalableFonts T k) (fonts : List φ) (size dpi : ℝ) (c : Color) (t : Str)
    (p : Vec2) (ax : HAlign) (ay : VAlign) :
    Grow k (Text T fonts size dpi c t p ax ay) (Text T fonts (k * size) (k * dpi) c t (point k p) ax ay) :=
  fun _ h => ⟨h.1, textShapes_big hk hT rfl h.2⟩

theorem grow_marker (hk : 0 < k) {T : TextEnv φ} (hT : ScalableFonts T k) (fonts : List φ) (dpi : ℝ) (m : Marker) (p : Vec2)
    (size : ℝ) (c : Color) :
    Grow k (MarkerAt T fonts dpi m p size c) (MarkerAt T fonts (k * dpi) m (point k p) (k * size) c) := by
  cases m with
  | disk =>
    show Grow k (Filled c _) (Filled c _)
    rw [mul_assoc, circle_big]
    exact grow_filled _ _
  | circle b =>
    show Grow k (Line _ c _) (Line _ c _)
    have e : k * size * b * 0.5 = k * (size * b * 0.5) := by ring
    rw [e, mul_assoc k size 0.5, circle_big]
    exact grow_line hk.ne' _ _ _
  | unicode u =>
    show Grow k (Text T fonts _ _ c u p _ _) (Text T fonts _ _ c u _ _ _)
    rw [mul_assoc k]
    exact grow_text hk hT _ _ _ _ _ _ _ _

theorem up_big (d : ℝ) (p : Vec2) : up (k * d) (point k p) = point k (up d p) := by unfold up point; ext <;> simp only [mul_add]

theorem right_big (d : ℝ) (p : Vec2) : right (k * d) (point k p) = point k (right d p) := by
  unfold right point; ext <;> simp only [mul_add]

theorem lengthOr_big (hk : k ≠ 0) (v d : ℝ) : lengthOr (k * v) (k * d) = k * lengthOr v d := by
  unfold lengthOr
  by_cases h : v = 0
  · simp [h]
  · simp [h, hk]

theorem orElse_big (hk : k ≠ 0) (m : Measure) (d : ℝ) : orElse (measure k m) (k * d) = k * orElse m d := by
  unfold orElse measure
  by_cases h : m.value = 0
  · simp [h]
  · simp [h, hk]

theorem nth_big (d : ℝ) (l : List ℝ) (i : Nat) : nth (k * d) (l.map (k * ·)) i = k * nth d l i := by
  unfold nth
  rw [List.length_map, List.getElem?_map]
  cases l[i % l.length]? <;> rfl

theorem nth_measures (d : ℝ) (l : List Measure) (i : Nat) :
    nth (k * d) ((l.map (measure k)).map (·.value)) i = k * nth d (l.map (·.value)) i := by
  rw [← nth_big, List.map_map, List.map_map]; rfl

/-! ## Elements -/

def lines (k : ℝ) (c : LinesConf φ) : LinesConf φ :=
  { c with stroke := stroke k c.stroke, markerSize := k * c.markerSize, labelPadding := k * c.labelPadding, labelFontSize := k * c.labelFontSize }

def points (k : ℝ) (c : PointsConf φ) : PointsConf φ :=
  { c with size := k * c.size, sizes := c.sizes.map (k * ·), labelPadding := k * c.labelPadding, labelFontSize := k * c.labelFontSize }

def bars (k : ℝ) (c : BarsConf φ) : BarsConf φ :=
  { c with stroke := stroke k c.stroke, fill := fill k c.fill, size := k * c.size, sizes := c.sizes.map (measure k), offset := k * c.offset, offsets := c.offsets.map (measure k), labelPadding := measure k c.labelPadding, labelFontSize := k * c.labelFontSize }

def areas (k : ℝ) (c : AreasConf) : AreasConf :=
  { c with strokeHigh := stroke k c.strokeHigh, strokeLow := stroke k c.strokeLow, fill := fill k c.fill }

def errorbars (k : ℝ) (c : ErrorbarsConf) : ErrorbarsConf := { c with barWidth := k * c.barWidth, strokeWidth := k * c.strokeWidth }

def rectangles (k : ℝ) (c : RectanglesConf) : RectanglesConf :=
  { c with sizeXDefault := k * c.sizeXDefault, sizeYDefault := k * c.sizeYDefault }

def vectors (k : ℝ) (c : VectorsConf) : VectorsConf := { c with size := k * c.size, sizes := c.sizes.map (k * ·) }

def labels (k : ℝ) (c : LabelsConf φ) : LabelsConf φ :=
  { c with labelPadding := measure k c.labelPadding, labelFontSize := k * c.labelFontSize }

def grid (k : ℝ) (c : GridConf) : GridConf := { c with stroke := stroke k c.stroke }

def background (k : ℝ) (c : BackgroundConf) : BackgroundConf := ⟨fill k c.fill, stroke k c.stroke⟩

theorem max_big (hk : 0 < k) (a b : ℝ) : max (k * a - k * b) 0 = k * max (a - b) 0 := by
  rw [← mul_sub, mul_max_of_nonneg _ _ hk.le, mul_zero]

/-- The plot at the other resolution. -/
structure State (k : ℝ) (s t : PlotState φ) : Prop where
  page : Page k s.layer t.layer
  scales : t.scales = s.scales
  margins : t.margins = (k * s.margins.1, k * s.margins.2.1, k * s.margins.2.2.1, k * s.margins.2.2.2)
  layout : t.layout = s.layout.map (rect k)

theorem clip_big (hk : 0 < k) {s t : PlotState φ} (h : State k s t) : t.clip = rect k s.clip := by
  unfold PlotState.clip plotGetClip
  rw [h.layout, List.getLast?_map, h.page.width, h.page.height, h.margins]
  cases s.layout.getLast? with
  | some r => rfl
  | none =>
    simp only [Option.map_none]
    unfold layoutMarginBox rect
    simp only [Rect.mk.injEq]
    refine ⟨by ring, by ring, ?_, ?_⟩ <;> rw [← mul_add, max_big hk]

theorem dpi_big {s t : PlotState φ} (h : State k s t) : t.layer.size.dpi = k * s.layer.size.dpi := h.page.dpi

variable {s t : PlotState φ}

theorem lines_big (hk : 0 < k) {T : TextEnv φ} (hT : ScalableFonts T k) (hs : State k s t) (c : LinesConf φ) (us vs : List ℝ) :
    Grow k (LinesPicture T s c us vs) (LinesPicture T t (lines k c) us vs) := by
  unfold LinesPicture
  simp only
  rw [clip_big hk hs, dpi_big hs, hs.page.fonts]
  refine order_big (grow_append (grow_append (grow_map ?_) ?_) (grow_map ?_))
  · intro ps _
    rw [series_big]
    exact grow_shape hk.ne' _ .default _
  · have e : 0 < (lines k c).markerSize ↔ 0 < c.markerSize := mul_pos_iff_of_pos_left hk
    by_cases h : 0 < c.markerSize
    · rw [if_pos h, if_pos (e.2 h)]
      refine grow_map fun p _ => ?_
      rw [at_big]
      exact grow_marker hk hT _ _ _ _ _ _
    · rw [if_neg h, if_neg (fun h' => h (e.1 h'))]
      exact .nil
  · intro q _
    have e : (lines k c).markerSize + lengthOr (lines k c).labelPadding (0.4 * (lines k c).labelFontSize) =
        k * (c.markerSize + lengthOr c.labelPadding (0.4 * c.labelFontSize)) := by
      rw [mul_add, ← lengthOr_big hk.ne']
      show k * _ + lengthOr (k * _) (0.4 * (k * _)) = _
      rw [mul_left_comm]
    rw [e, at_big, up_big]
    exact grow_text hk hT _ _ _ _ _ _ _ _

theorem nth_zero (l : List ℝ) (i : Nat) : nth 0 (l.map (k * ·)) i = k * nth 0 l i := by
  have := nth_big (k := k) 0 l i
  rwa [mul_zero] at this

theorem points_big (hk : 0 < k) {T : TextEnv φ} (hT : ScalableFonts T k) (hs : State k s t) (c : PointsConf φ) (us vs : List ℝ) :
    Grow k (PointsPicture T s c us vs) (PointsPicture T t (points k c) us vs) := by
  unfold PointsPicture
  simp only
  rw [clip_big hk hs, dpi_big hs, hs.page.fonts]
  refine order_big (grow_append (grow_mapIdx ?_) (grow_mapIdx ?_))
  · intro i p _
    rw [at_big, show nth (points k c).size (points k c).sizes i = k * nth c.size c.sizes i from nth_big _ _ _]
    exact grow_marker hk hT _ _ _ _ _ _
  · intro i q _
    have e : nth 0 (points k c).sizes i / 2 + lengthOr (points k c).labelPadding (0.2 * (points k c).labelFontSize) =
        k * (nth 0 c.sizes i / 2 + lengthOr c.labelPadding (0.2 * c.labelFontSize)) := by
      rw [mul_add, ← lengthOr_big hk.ne', ← mul_div_assoc, ← nth_zero]
      show _ + lengthOr (k * _) (0.2 * (k * _)) = _
      rw [mul_left_comm]; rfl
    rw [e, at_big, up_big]
    exact grow_text hk hT _ _ _ _ _ _ _ _

theorem vbar_big (a w b v : ℝ) : vbar (k * a) (k * w) (k * b) (k * v) = (vbar a w b v).map (point k) := by
  unfold vbar point
  simp only [List.map_cons, List.map_nil, mul_sub, mul_add, mul_div_assoc]

theorem width_big (hk : k ≠ 0) (c : BarsConf φ) (dpi : ℝ) (i : Nat) :
    nth (lengthOr (bars k c).size (10 / 72 * (k * dpi))) ((bars k c).sizes.map (·.value)) i =
      k * nth (lengthOr c.size (10 / 72 * dpi)) (c.sizes.map (·.value)) i := by
  rw [← nth_measures, ← lengthOr_big hk, mul_left_comm k]; rfl

theorem offset_big (c : BarsConf φ) (i : Nat) :
    nth (bars k c).offset ((bars k c).offsets.map (·.value)) i = k * nth c.offset (c.offsets.map (·.value)) i := by
  rw [← nth_measures]; rfl

theorem padding_big (hk : k ≠ 0) (m : Measure) (a d : ℝ) : orElse (measure k m) (a * (k * d)) = k * orElse m (a * d) := by
  rw [← orElse_big hk, mul_left_comm]

theorem columns_big (hk : 0 < k) {T : TextEnv φ} (hT : ScalableFonts T k) (hs : State k s t) (c : BarsConf φ) (us vs lows : List ℝ) :
    Grow k (ColumnsPicture T s c us vs lows) (ColumnsPicture T t (bars k c) us vs lows) := by
  unfold ColumnsPicture
  simp only
  rw [clip_big hk hs, dpi_big hs]
  refine order_big (grow_append (grow_mapIdx ?_) (grow_mapIdx ?_))
  · intro i p _
    rw [width_big hk.ne', offset_big, at_big, at_big, at_big]
    show Grow k _ (Shape _ _ (ring (vbar (k * _ + _) _ (k * _) (k * _))))
    rw [← mul_add, vbar_big, ring_big]
    exact grow_shape hk.ne' _ _ _
  · intro i q _
    rw [offset_big, at_big, right_big,
      show orElse (bars k c).labelPadding (0.6 * (bars k c).labelFontSize) = k * orElse c.labelPadding (0.6 * c.labelFontSize)
        from padding_big hk.ne' _ _ _, up_big]
    exact grow_text hk hT _ _ _ _ _ _ _ _

theorem rows_big (hk : 0 < k) {T : TextEnv φ} (hT : ScalableFonts T k) (hs : State k s t) (c : BarsConf φ) (us vs lows : List ℝ) :
    Grow k (RowsPicture T s c us vs lows) (RowsPicture T t (bars k c) us vs lows) := by
  unfold RowsPicture
  simp only
  rw [clip_big hk hs, dpi_big hs]
  refine order_big (grow_append (grow_mapIdx ?_) (grow_mapIdx ?_))
  · intro i p _
    rw [width_big hk.ne', offset_big, at_big, at_big, at_big]
    show Grow k _ (Shape _ _ (ring ((vbar (k * _ - _) _ (k * _) (k * _)).map _)))
    rw [← mul_sub, vbar_big, List.map_map]
    have e : ((fun q : Vec2 => (⟨q.y, q.x⟩ : Vec2)) ∘ point k) = point k ∘ fun q : Vec2 => ⟨q.y, q.x⟩ := rfl
    rw [e, ← List.map_map, ring_big]
    exact grow_shape hk.ne' _ _ _
  · intro i q _
    rw [offset_big, at_big, ← mul_neg, up_big,
      show orElse (bars k c).labelPadding (0.6 * (bars k c).labelFontSize) = k * orElse c.labelPadding (0.6 * c.labelFontSize)
        from padding_big hk.ne' _ _ _, right_big]
    exact grow_text hk hT _ _ _ _ _ _ _ _

theorem area_big (hk : 0 < k) (c : AreasConf) (high low : List Vec2) :
    Grow k (AreaPicture c high low) (AreaPicture (areas k c) (high.map (point k)) (low.map (point k))) := by
  unfold AreaPicture
  refine order_big (.cons ?_ (.cons ?_ (.cons ?_ .nil)))
  · rw [← List.map_reverse, ← List.map_append, ring_big]
    exact grow_shape hk.ne' .default _ _ |> fun h => by
      have e : stroke k .default = .default := by simp [stroke, StrokeState.default, measure]
      rw [e] at h; exact h
  · rw [polyline_big]; exact grow_shape hk.ne' _ .default _
  · rw [← List.map_reverse, polyline_big]; exact grow_shape hk.ne' _ .default _

theorem box_big (o : Vec2) (w h : ℝ) : box (point k o) (k * w) (k * h) = path k (box o w h) := by
  unfold box
  rw [← ring_big]
  simp only [List.map_cons, List.map_nil, point, mul_sub, mul_add, mul_div_assoc]

theorem rectangles_big (hk : 0 < k) (hs : State k s t) (c : RectanglesConf) (us vs ws hs' : List ℝ) :
    Grow k (RectanglesPicture s c us vs ws hs') (RectanglesPicture t (rectangles k c) us vs ws hs') := by
  unfold RectanglesPicture
  rw [clip_big hk hs]
  refine order_big (grow_mapIdx ?_)
  rintro i p _ _ rfl
  have e : ∀ (l : List ℝ) (w : ℝ), l.map (· * (k * w)) = (l.map (· * w)).map (k * ·) := by
    intro l w
    rw [List.map_map]
    exact List.map_congr_left fun x _ => mul_left_comm _ _ _
  show [_] = [_]
  rw [at_big, show (rect k s.clip).w = k * s.clip.w from rfl, show (rect k s.clip).h = k * s.clip.h from rfl, e, e,
    show (rectangles k c).sizeXDefault = k * c.sizeXDefault from rfl, show (rectangles k c).sizeYDefault = k * c.sizeYDefault from rfl,
    nth_big, nth_big, box_big]
  rfl

theorem arrow_big (hk : 0 < k) (p q : Vec2) (size : ℝ) (c : Color) : Grow k (Arrow p q size c) (Arrow (point k p) (point k q) (k * size) c) := by
  rintro shapes ⟨d, h1, ⟨m, h2, h3, h4⟩, h5⟩
  refine ⟨d, h1, ⟨k * m, by positivity, ?_, ?_⟩, ?_⟩
  · show k * _ - k * _ = _
    rw [← mul_sub, h3, mul_assoc]
  · show k * _ - k * _ = _
    rw [← mul_sub, h4, mul_assoc]
  · refine order_big (.cons ?_ (.cons ?_ .nil)) _ h5
    · rw [show [point k p, point k q] = [p, q].map (point k) from rfl, polyline_big]
      exact grow_line hk.ne' _ _ _
    · have e : [(⟨(point k q).x + 2 * (k * size) * d.y, (point k q).y - 2 * (k * size) * d.x⟩ : Vec2),
          ⟨(point k q).x - 2 * (k * size) * d.y, (point k q).y + 2 * (k * size) * d.x⟩,
          ⟨(point k q).x + 4 * (k * size) * d.x, (point k q).y + 4 * (k * size) * d.y⟩] =
          [(⟨q.x + 2 * size * d.y, q.y - 2 * size * d.x⟩ : Vec2),
          ⟨q.x - 2 * size * d.y, q.y + 2 * size * d.x⟩, ⟨q.x + 4 * size * d.x, q.y + 4 * size * d.y⟩].map (point k) := by
        simp only [List.map_cons, List.map_nil, point, List.cons.injEq, Vec2.mk.injEq, and_true]
        refine ⟨⟨?_, ?_⟩, ⟨?_, ?_⟩, ?_, ?_⟩ <;> ring
      rw [e, ring_big]
      exact grow_filled _ _

theorem vectors_big (hk : 0 < k) (hs : State k s t) (c : VectorsConf) (us vs dus dvs : List ℝ) :
    Grow k (VectorsPicture s c us vs dus dvs) (VectorsPicture t (vectors k c) us vs dus dvs) := by
  unfold VectorsPicture
  rw [clip_big hk hs]
  refine order_big (grow_mapIdx ?_)
  intro i p _
  rw [at_big, at_big, show nth (vectors k c).size (vectors k c).sizes i = k * nth c.size c.sizes i from nth_big _ _ _]
  exact arrow_big hk _ _ _ _

theorem point_inj (hk : k ≠ 0) {p q : Vec2} (h : point k p = point k q) : p = q := by
  unfold point at h
  simp only [Vec2.mk.injEq] at h
  ext
  · exact mul_left_cancel₀ hk h.1
  · exact mul_left_cancel₀ hk h.2

theorem errorbar_big (hk : 0 < k) (p q : Vec2) (cap w : ℝ) (c : Color) :
    Grow k (ErrorBar p q cap w c) (ErrorBar (point k p) (point k q) (k * cap) (k * w) c) := by
  rintro shapes ⟨h0, o, h1, ⟨m, h2, h3, h4⟩, h5⟩
  refine ⟨fun h => h0 (point_inj hk.ne' h), o, h1, ⟨k * m, by positivity, ?_, ?_⟩, ?_⟩
  · show k * _ - k * _ = _
    rw [← mul_sub, h3, mul_assoc]
  · show k * _ - k * _ = _
    rw [← mul_sub, h4, mul_assoc]
  · have e : ∀ p : Vec2, [(⟨(point k p).x - k * cap / 2 * o.x, (point k p).y - k * cap / 2 * o.y⟩ : Vec2),
        ⟨(point k p).x + k * cap / 2 * o.x, (point k p).y + k * cap / 2 * o.y⟩] =
        [(⟨p.x - cap / 2 * o.x, p.y - cap / 2 * o.y⟩ : Vec2), ⟨p.x + cap / 2 * o.x, p.y + cap / 2 * o.y⟩].map (point k) := by
      intro p
      simp only [List.map_cons, List.map_nil, point, List.cons.injEq, Vec2.mk.injEq, and_true]
      refine ⟨⟨?_, ?_⟩, ?_, ?_⟩ <;> ring
    refine order_big (.cons ?_ (.cons ?_ (.cons ?_ .nil))) _ h5
    · rw [show [point k p, point k q] = [p, q].map (point k) from rfl, polyline_big]
      exact grow_line hk.ne' _ _ _
    · rw [e, polyline_big]; exact grow_line hk.ne' _ _ _
    · rw [e, polyline_big]; exact grow_line hk.ne' _ _ _

theorem vertical_big (hk : 0 < k) (hs : State k s t) (c : ErrorbarsConf) (us lo hi : List ℝ) :
    Grow k (VerticalErrorbars s c us lo hi) (VerticalErrorbars t (errorbars k c) us lo hi) := by
  unfold VerticalErrorbars
  rw [clip_big hk hs]
  refine order_big (grow_mapIdx ?_)
  intro i p _
  rw [at_big, at_big]
  exact errorbar_big hk _ _ _ _ _

theorem horizontal_big (hk : 0 < k) (hs : State k s t) (c : ErrorbarsConf) (vs lo hi : List ℝ) :
    Grow k (HorizontalErrorbars s c vs lo hi) (HorizontalErrorbars t (errorbars k c) vs lo hi) := by
  unfold HorizontalErrorbars
  rw [clip_big hk hs]
  refine order_big (grow_mapIdx ?_)
  intro i p _
  rw [at_big, at_big, show (rect k s.clip).x - (rect k s.clip).y = k * (s.clip.x - s.clip.y) from (mul_sub _ _ _).symm, up_big]
  exact errorbar_big hk _ _ _ _ _

theorem labels_big (hk : 0 < k) {T : TextEnv φ} (hT : ScalableFonts T k) (hs : State k s t) (c : LabelsConf φ) (us vs : List ℝ) :
    Grow k (LabelsPicture T s c us vs) (LabelsPicture T t (labels k c) us vs) := by
  unfold LabelsPicture
  rw [clip_big hk hs, dpi_big hs]
  refine order_big (grow_map ?_)
  intro q _
  rw [at_big, show orElse (labels k c).labelPadding (0.8 * (labels k c).labelFontSize) = k * orElse c.labelPadding (0.8 * c.labelFontSize)
        from padding_big hk.ne' _ _ _, ← mul_neg, up_big]
  exact grow_text hk hT _ _ _ _ _ _ _ _

theorem grid_big (hk : 0 < k) (hs : State k s t) (c : GridConf) (us vs : List ℝ) :
    Grow k (GridPicture s c us vs) (GridPicture t (grid k c) us vs) := by
  unfold GridPicture
  rw [clip_big hk hs]
  have e : ∀ p q : Vec2, polyline [point k p, point k q] = path k (polyline [p, q]) := fun p q => polyline_big [p, q]
  refine order_big (grow_append (grow_map ?_) (grow_map ?_))
  · intro u _
    rw [at_big, at_big, e]; exact grow_shape hk.ne' _ .default _
  · intro u _
    rw [at_big, at_big, e]; exact grow_shape hk.ne' _ .default _

theorem whole_big (r : Rect) : area (rect k r) = path k (area r) := by
  unfold area
  rw [at_big, at_big, at_big, at_big, ← ring_big]; rfl

end
end Clip.Enlarge
