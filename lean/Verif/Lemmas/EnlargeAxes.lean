import Verif.Lemmas.EnlargePictures
set_option linter.unusedSimpArgs false
/-! # Larger pictures of axes and legends -/
namespace Clip.Enlarge
open Settings Drawing Pictures PlotSpec AxisSpec DataSpec Elements Options LegendSpec
noncomputable section
variable {φ : Type} {k : ℝ}

def axis (k : ℝ) (a : AxisDef φ) : AxisDef φ :=
  { a with titlePadding := measure k a.titlePadding, titleFontSize := k * a.titleFontSize, tickLength := measure k a.tickLength, labelPadding := measure k a.labelPadding, labelFontSize := k * a.labelFontSize, border := stroke k a.border }

theorem along_big (r : Rect) (al : AxisAlign) (u : ℝ) : along (rect k r) al u = point k (along r al u) := by
  cases al <;> exact at_big _ _ _

theorem across_big (al : AxisAlign) (d : ℝ) (p : Vec2) : across al (k * d) (point k p) = point k (across al d p) := by
  cases al <;> simp only [across, point, mul_add]

theorem strokeOnly_big (hk : k ≠ 0) (s : StrokeState) : strokeOnly (stroke k s) = style k (strokeOnly s) := by
  unfold strokeOnly stroke
  by_cases h : s.width = 0
  · simp [h, style]
  · by_cases hd : s.dashed = true
    · simp [h, hd, hk, style, measure, Function.comp_def]
    · simp [h, hd, hk, style]

theorem line_big (hk : k ≠ 0) (s : StrokeState) (p q : Vec2) : line (stroke k s) (point k p) (point k q) = shape k (line s p q) := by
  unfold line shape
  rw [strokeOnly_big hk, show [point k p, point k q] = [p, q].map (point k) from rfl, polyline_big]

theorem tick_big (hk : k ≠ 0) (a : AxisDef φ) (dpi : ℝ) (r : Rect) (u : ℝ) :
    tick (axis k a) (k * dpi) (rect k r) u = shape k (tick a dpi r u) := by
  unfold tick
  simp only
  rw [← line_big hk, ← across_big, ← across_big, ← along_big,
    show orElse (axis k a).tickLength (4 / 72 * (k * dpi)) = k * orElse a.tickLength (4 / 72 * dpi) from padding_big hk _ _ _,
    mul_assoc, mul_assoc]
  rfl

theorem turned_big (c : Vec2) (a : ℝ) (q : Vec2) : turned (point k c) a (point k q) = point k (turned c a q) := by
  unfold turned
  simp only
  have e : ((((point k q).x - (point k c).x : ℝ) : ℂ) + (((point k q).y - (point k c).y : ℝ) : ℂ) * Complex.I) =
      (k : ℂ) * (((q.x - c.x : ℝ) : ℂ) + ((q.y - c.y : ℝ) : ℂ) * Complex.I) := by
    unfold point
    push_cast
    ring
  rw [e, mul_left_comm, Complex.re_ofReal_mul, Complex.im_ofReal_mul]
  ext
  · exact (mul_add k _ _).symm
  · exact (mul_add k _ _).symm

theorem turnedText_big (hk : 0 < k) {T : TextEnv φ} (hT : ScalableFonts T k) (fonts : List φ) (size dpi : ℝ) (text : Str) (p : Vec2)
    (ax : HAlign) (ay : VAlign) (angle : ℝ) (c : Color) :
    Grow k (TurnedText T fonts size dpi text p ax ay angle c) (TurnedText T fonts (k * size) (k * dpi) text (point k p) ax ay angle c) := by
  rintro shapes ⟨h0, straight, h1, rfl⟩
  refine ⟨h0, straight.map (shape k), textShapes_big hk hT rfl h1, ?_⟩
  rw [List.map_map, List.map_map]
  refine List.map_congr_left fun d _ => ?_
  simp only [Function.comp_apply, shape, path, DrawCmd.mk.injEq, and_true, true_and, List.map_map]
  refine List.map_congr_left fun x _ => ?_
  have e := fun x y => turned_big (k := k) p angle ⟨x, y⟩
  cases x with
  | moveTo x y => show PathCmd.moveTo _ _ = .moveTo (turned _ _ (point k ⟨x, y⟩)).x (turned _ _ (point k ⟨x, y⟩)).y; rw [e]
  | lineTo x y => show PathCmd.lineTo _ _ = .lineTo (turned _ _ (point k ⟨x, y⟩)).x (turned _ _ (point k ⟨x, y⟩)).y; rw [e]
  | quadTo a b x y =>
    show PathCmd.quadTo _ _ _ _ = .quadTo (turned _ _ (point k ⟨a, b⟩)).x (turned _ _ (point k ⟨a, b⟩)).y
      (turned _ _ (point k ⟨x, y⟩)).x (turned _ _ (point k ⟨x, y⟩)).y
    rw [e, e]
  | cubicTo a b c d x y =>
    show PathCmd.cubicTo _ _ _ _ _ _ = .cubicTo (turned _ _ (point k ⟨a, b⟩)).x (turned _ _ (point k ⟨a, b⟩)).y
      (turned _ _ (point k ⟨c, d⟩)).x (turned _ _ (point k ⟨c, d⟩)).y (turned _ _ (point k ⟨x, y⟩)).x (turned _ _ (point k ⟨x, y⟩)).y
    rw [e, e, e]
  | close => rfl

theorem gap_big (hk : k ≠ 0) (a : AxisDef φ) : labelGap (axis k a) = k * labelGap a := padding_big hk _ _ _

theorem titleGap_big (hk : k ≠ 0) (a : AxisDef φ) : titleGap (axis k a) = k * titleGap a := padding_big hk _ _ _

theorem labelPoint_big (hk : k ≠ 0) (a : AxisDef φ) (r : Rect) (u : ℝ) : labelPoint (axis k a) (rect k r) u = point k (labelPoint a r u) := by
  unfold labelPoint
  rw [gap_big hk, along_big, mul_assoc]
  exact across_big _ _ _

theorem labelShapes_big (hk : 0 < k) {T : TextEnv φ} (hT : ScalableFonts T k) (a : AxisDef φ) (dpi : ℝ) (r : Rect) (l : ℝ × Str) :
    Grow k (LabelShapes T a dpi r l) (LabelShapes T (axis k a) (k * dpi) (rect k r) l) := by
  unfold LabelShapes
  rw [labelPoint_big hk.ne']
  exact turnedText_big hk hT _ _ _ _ _ _ _ _ _

theorem extents_big (hk : 0 < k) {T : TextEnv φ} (hT : ScalableFonts T k) {fonts : List φ} {size dpi : ℝ} {text : Str} {w h : ℝ}
    (he : Extents T fonts size dpi text w h) : Extents T fonts (k * size) (k * dpi) text (k * w) (k * h) := by
  obtain ⟨gs, top, bottom, h1, h2, h3, rfl, rfl⟩ := he
  refine ⟨gs.map (glyph k), k * top, k * bottom, ?_, ?_, ?_, ?_, (mul_sub _ _ _)⟩
  · rw [points_size hk.ne']; exact shaped_big (fun f => hT.shape f _ _ _) h1
  · have := top_big hk h2; rw [List.map_map] at this ⊢; exact this
  · have := bottom_big hk h3; rw [List.map_map] at this ⊢; exact this
  · rw [advance_big, sum_big]

theorem turnedSize_big (hk : 0 < k) (w h a : ℝ) : turnedSize (k * w) (k * h) a = (k * (turnedSize w h a).1, k * (turnedSize w h a).2) := by
  unfold turnedSize
  by_cases h0 : a = 0
  · simp [h0]
  · simp only [h0, if_false, Prod.mk.injEq]
    constructor <;> rw [mul_assoc, mul_assoc, abs_mul k, abs_mul k, abs_of_pos hk, mul_add]

theorem ofSize_big (al : AxisAlign) (s : ℝ × ℝ) : ofSize al (k * s.1, k * s.2) = k * ofSize al s := by cases al <;> rfl

theorem room_big (hk : 0 < k) {T : TextEnv φ} (hT : ScalableFonts T k) {fonts : List φ} {size dpi angle : ℝ} {al : AxisAlign} {text : Str}
    {x : ℝ} (h : Room T fonts size dpi angle al text x) : Room T fonts (k * size) (k * dpi) angle al text (k * x) := by
  obtain ⟨w, h', h1, rfl⟩ := h
  exact ⟨_, _, extents_big hk hT h1, by rw [turnedSize_big hk, ofSize_big]⟩

theorem labelRoom_big (hk : 0 < k) {T : TextEnv φ} (hT : ScalableFonts T k) {a : AxisDef φ} {dpi : ℝ} {ls : List (ℝ × Str)} {x : ℝ}
    (h : LabelRoom T a dpi ls x) : LabelRoom T (axis k a) (k * dpi) ls (k * x) := by
  obtain ⟨rooms, h1, h2⟩ := h
  refine ⟨rooms.map (k * ·), ?_, top_big hk h2⟩
  rw [List.forall₂_map_right_iff]
  exact h1.imp fun l y hy => room_big hk hT hy

theorem titlePoint_big (hk : 0 < k) (a : AxisDef φ) (r : Rect) (x y : ℝ) :
    titlePoint (axis k a) (rect k r) (k * x) (k * y) = point k (titlePoint a r x y) := by
  unfold titlePoint
  have e : titleDistance (axis k a) (k * x) (k * y) = k * titleDistance a x y := by
    unfold titleDistance
    rw [titleGap_big hk.ne', gap_big hk.ne', show SameSide (axis k a) = SameSide a from rfl]
    split_ifs <;> ring
  rw [e, along_big, mul_assoc]
  exact across_big _ _ _

theorem title_big (hk : 0 < k) {T : TextEnv φ} (hT : ScalableFonts T k) (al : AxisAlign) (a : AxisDef φ) (dpi : ℝ) (r : Rect) (x : ℝ) :
    Grow k (TitleShapesBy al T a dpi r x) (TitleShapesBy al T (axis k a) (k * dpi) (rect k r) (k * x)) := by
  rintro shapes (⟨h1, rfl⟩ | ⟨y, h1, h2⟩)
  · exact .inl ⟨h1, rfl⟩
  · refine .inr ⟨k * y, room_big hk hT h1, ?_⟩
    rw [titlePoint_big hk]
    exact turnedText_big hk hT _ _ _ _ _ _ _ _ _ _ h2

variable {P : PlotEnv φ}

theorem axis_big (hk : 0 < k) (hT : ScalableFonts P.text k) (al : AxisAlign) (a : AxisDef φ) (fmt : Formatter) (dpi : ℝ) (r : Rect) :
    Grow k (AxisPictureBy al P a fmt dpi r) (AxisPictureBy al P (axis k a) fmt (k * dpi) (rect k r)) := by
  rintro shapes ⟨ticks, tt, ps, ts, room, ls, title, h1, h2, h3, h4, h5, h6, rfl⟩
  refine ⟨ticks, tt, ps, ts, k * room, ls.map (List.map (shape k)), title.map (shape k), h1, h2, h3, labelRoom_big hk hT h4, ?_,
    title_big hk hT _ _ _ _ _ _ h6, ?_⟩
  · rw [List.forall₂_map_right_iff]
    exact h5.imp fun l y hy => labelShapes_big hk hT _ _ _ _ _ hy
  · rw [List.map_append, List.map_append, List.map_cons, List.map_flatten, along_big, along_big, List.map_map]
    show _ = line (stroke k _) _ _ :: _ ++ _ ++ _
    rw [line_big hk.ne']
    congr 3
    refine List.map_congr_left fun u _ => ?_
    exact (tick_big hk.ne' a dpi r u).symm

theorem reserved_big (hk : 0 < k) (hT : ScalableFonts P.text k) {a : AxisDef φ} {fmt : Formatter} {dpi x : ℝ}
    (h : Reserved P a fmt dpi x) : Reserved P (axis k a) fmt (k * dpi) (k * x) := by
  rcases h with ⟨h1, rfl⟩ | ⟨h1, ps, ts, room, h2, h3, h4, h5⟩
  · exact .inl ⟨h1, mul_zero _⟩
  · refine .inr ⟨h1, ps, ts, k * room, h2, h3, labelRoom_big hk hT h4, ?_⟩
    rcases h5 with ⟨h5, rfl⟩ | ⟨h5, y, h6, rfl⟩
    · exact .inl ⟨h5, by rw [gap_big hk.ne', mul_add]⟩
    · exact .inr ⟨h5, k * y, room_big hk hT h6, by rw [gap_big hk.ne', titleGap_big hk.ne', mul_add, mul_add, mul_add]⟩

theorem shown_big (hk : 0 < k) (hT : ScalableFonts P.text k) (a : AxisDef φ) (fmt : Formatter) (dpi : ℝ) (r : Rect) :
    Grow k (Shown P a fmt dpi r) (Shown P (axis k a) fmt (k * dpi) (rect k r)) := by
  rintro shapes (⟨h1, rfl⟩ | ⟨h1, h2⟩)
  · exact .inl ⟨h1, rfl⟩
  · exact .inr ⟨h1, axis_big hk hT _ _ _ _ _ _ h2⟩

theorem inset_big (hk : 0 < k) (r : Rect) (a b c d : ℝ) : inset (rect k r) (k * a) (k * b) (k * c) (k * d) = rect k (inset r a b c d) := by
  unfold inset rect
  simp only [Rect.mk.injEq]
  refine ⟨by ring, by ring, ?_, ?_⟩ <;> rw [← mul_sub, max_big hk]

/-! ## Legends -/

def four (k : ℝ) (m : ℝ × ℝ × ℝ × ℝ) : ℝ × ℝ × ℝ × ℝ := (k * m.1, k * m.2.1, k * m.2.2.1, k * m.2.2.2)

def item (k : ℝ) (i : LegendItem φ) : LegendItem φ :=
  { i with labelMargin := k * i.labelMargin, labelFontSize := k * i.labelFontSize, markerMargin := k * i.markerMargin, markerSize := k * i.markerSize }

def legend (k : ℝ) (c : LegendConf φ) : LegendConf φ :=
  { c with rowPadding := k * c.rowPadding, columnPadding := k * c.columnPadding, margins := four k c.margins, padding := four k c.padding, borders := (stroke k c.borders.1, stroke k c.borders.2.1, stroke k c.borders.2.2.1, stroke k c.borders.2.2.2), items := c.items.map (item k) }

def pair (k : ℝ) (s : ℝ × ℝ) : ℝ × ℝ := (k * s.1, k * s.2)

theorem itemSize_big (hk : 0 < k) {T : TextEnv φ} (hT : ScalableFonts T k) {dpi : ℝ} {i : LegendItem φ} {s : ℝ × ℝ}
    (h : ItemSize T dpi i s) : ItemSize T (k * dpi) (item k i) (pair k s) := by
  obtain ⟨w, h', h1, rfl⟩ := h
  exact ⟨k * w, k * h', extents_big hk hT h1, by unfold pair; rw [mul_add]; rfl⟩

theorem run_from (hk : 0 < k) (pad : ℝ) (ls : List ℝ) (a : ℝ) : open Classical in
    (ls.map (k * ·)).foldl (fun sum l => (if 0 < sum then sum + k * pad else sum) + l) (k * a) =
      k * ls.foldl (fun sum l => (if 0 < sum then sum + pad else sum) + l) a := by
  induction ls generalizing a with
  | nil => rfl
  | cons l ls ih =>
    rw [List.map_cons, List.foldl_cons, List.foldl_cons, ← ih]
    congr 1
    have e : 0 < k * a ↔ 0 < a := mul_pos_iff_of_pos_left hk
    by_cases h : 0 < a
    · rw [if_pos h, if_pos (e.2 h)]; ring
    · rw [if_neg h, if_neg fun h' => h (e.1 h')]; ring

theorem run_big (hk : 0 < k) (pad : ℝ) (ls : List ℝ) : runLength (k * pad) (ls.map (k * ·)) = k * runLength pad ls := by
  have := run_from hk pad ls 0
  rw [mul_zero] at this
  exact this

theorem next_big (hk : 0 < k) (pad : ℝ) (ls : List ℝ) : next (k * pad) (ls.map (k * ·)) = k * next pad ls := by
  unfold next
  rw [run_big hk]
  have e : 0 < k * runLength pad ls ↔ 0 < runLength pad ls := mul_pos_iff_of_pos_left hk
  by_cases h : 0 < runLength pad ls
  · rw [if_pos h, if_pos (e.2 h)]; ring
  · rw [if_neg h, if_neg fun h' => h (e.1 h')]

theorem greatest_from (hk : 0 < k) (ls : List ℝ) (a : ℝ) : (ls.map (k * ·)).foldl max (k * a) = k * ls.foldl max a := by
  induction ls generalizing a with
  | nil => rfl
  | cons l ls ih => rw [List.map_cons, List.foldl_cons, List.foldl_cons, ← ih, mul_max_of_nonneg _ _ hk.le]

theorem greatest_big (hk : 0 < k) (ls : List ℝ) : greatest (ls.map (k * ·)) = k * greatest ls := by
  have := greatest_from hk ls 0
  rw [mul_zero] at this
  exact this

theorem firsts (ss : List (ℝ × ℝ)) : (ss.map (pair k)).map (·.1) = (ss.map (·.1)).map (k * ·) := by
  rw [List.map_map, List.map_map]; rfl

theorem seconds (ss : List (ℝ × ℝ)) : (ss.map (pair k)).map (·.2) = (ss.map (·.2)).map (k * ·) := by
  rw [List.map_map, List.map_map]; rfl

theorem mapIdx_map {α β γ : Type} (f : α → β) (g : Nat → β → γ) (l : List α) : (l.map f).mapIdx g = l.mapIdx fun i x => g i (f x) := by
  rw [List.mapIdx_eq_zipIdx_map, List.mapIdx_eq_zipIdx_map, List.zipIdx_map, List.map_map]; rfl

theorem map_mapIdx {α β γ : Type} (f : β → γ) (g : Nat → α → β) (l : List α) : (l.mapIdx g).map f = l.mapIdx fun i x => f (g i x) := by
  rw [List.mapIdx_eq_zipIdx_map, List.mapIdx_eq_zipIdx_map, List.map_map]; rfl

theorem stacked_big (hk : 0 < k) {pad : ℝ} {ss : List (ℝ × ℝ)} {bs : List Rect} {w h : ℝ} (hs : Stacked pad ss bs w h) :
    Stacked (k * pad) (ss.map (pair k)) (bs.map (rect k)) (k * w) (k * h) := by
  obtain ⟨rfl, rfl, rfl⟩ := hs
  refine ⟨?_, by rw [firsts, greatest_big hk], by rw [seconds, run_big hk]⟩
  rw [mapIdx_map, map_mapIdx]
  congr 1
  funext i e
  rw [← List.map_take, seconds, next_big hk]
  simp [rect, pair]

theorem rowHeight_big (hk : 0 < k) (row : List (ℝ × ℝ)) : rowHeight (row.map (pair k)) = k * rowHeight row := by
  unfold rowHeight; rw [seconds, greatest_big hk]

theorem rowBoxes_big (hk : 0 < k) (pad y : ℝ) (row : List (ℝ × ℝ)) :
    rowBoxes (k * pad) (k * y) (row.map (pair k)) = (rowBoxes pad y row).map (rect k) := by
  unfold rowBoxes
  rw [mapIdx_map, map_mapIdx]
  congr 1
  funext i e
  rw [← List.map_take, firsts, next_big hk, rowHeight_big hk]
  rfl

theorem broken_big (hk : 0 < k) {pad width : ℝ} {rows : List (List (ℝ × ℝ))} (h : Broken pad width rows) :
    Broken (k * pad) (k * width) (rows.map (List.map (pair k))) := by
  refine ⟨fun e => h.some (List.map_eq_nil_iff.1 e), ?_, ?_, ?_, ?_⟩
  · intro row hr n h2 hn
    obtain ⟨r, hr', rfl⟩ := List.mem_map.1 hr
    rw [List.length_map] at hn
    rw [← List.map_take, firsts, run_big hk]
    exact mul_le_mul_of_nonneg_left (h.fits r hr' n h2 hn) hk.le
  · intro e row he
    rw [List.head?_map] at he
    obtain ⟨r, hr, he⟩ := Option.map_eq_some_iff.1 he
    cases r with
    | nil => cases he
    | cons e' r' =>
      rw [List.map_cons] at he
      cases he
      exact mul_le_mul_of_nonneg_left (h.first _ _ hr) hk.le
  · intro i row e nx h1 h2
    rw [List.getElem?_map] at h1 h2
    obtain ⟨r, hr, rfl⟩ := Option.map_eq_some_iff.1 h1
    obtain ⟨r', hr', he⟩ := Option.map_eq_some_iff.1 h2
    cases r' with
    | nil => cases he
    | cons e' r'' =>
      rw [List.map_cons] at he
      cases he
      rw [show r.map (pair k) ++ [pair k e'] = (r ++ [e']).map (pair k) by rw [List.map_append]; rfl, firsts, run_big hk]
      exact mul_lt_mul_of_pos_left (h.full _ _ _ _ hr hr') hk
  · intro i he
    rw [List.getElem?_map] at he
    obtain ⟨r, hr, he⟩ := Option.map_eq_some_iff.1 he
    exact h.rest i (List.map_eq_nil_iff.1 he ▸ hr)

theorem flowing_big (hk : 0 < k) {rp cp width : ℝ} {ss : List (ℝ × ℝ)} {bs : List Rect} {w h : ℝ}
    (hs : Flowing rp cp width ss bs w h) :
    Flowing (k * rp) (k * cp) (k * width) (ss.map (pair k)) (bs.map (rect k)) (k * w) (k * h) := by
  obtain ⟨rows, rfl, h1, rfl, rfl, rfl⟩ := hs
  refine ⟨rows.map (List.map (pair k)), by rw [List.map_flatten], broken_big hk h1, ?_, ?_, ?_⟩
  · rw [List.map_flatten, map_mapIdx, mapIdx_map]
    congr 2
    funext i row
    rw [← rowBoxes_big hk, ← List.map_take, List.map_map]
    congr 1
    rw [← sum_big, List.map_map]
    refine congrArg List.sum (List.map_congr_left fun r _ => ?_)
    simp only [Function.comp_apply, rowHeight_big hk, mul_add]
  · rw [← greatest_big hk, List.map_map, List.map_map]
    refine congrArg greatest (List.map_congr_left fun b _ => ?_)
    simp only [Function.comp_apply, rect, mul_add]
  · rw [List.length_map, List.map_map, mul_add, ← sum_big, List.map_map, mul_assoc]
    congr 2
    refine List.map_congr_left fun r _ => ?_
    simp only [Function.comp_apply, rowHeight_big hk]

theorem placedIn_big (hk : 0 < k) (ax : HAlign) (ay : VAlign) (r : Rect) (w h : ℝ) :
    placed ax ay (rect k r) (k * w) (k * h) = rect k (placed ax ay r w h) := by
  unfold placed rect
  simp only [Rect.mk.injEq, ← mul_min_of_nonneg _ _ hk.le]
  refine ⟨?_, ?_, trivial, trivial⟩ <;> ring

theorem onPage_big (c b : Rect) : onPage (rect k c) (rect k b) = rect k (onPage c b) := by
  unfold onPage rect
  simp only [Rect.mk.injEq]
  refine ⟨by ring, by ring, trivial, trivial⟩

theorem sidePoint_big (b : Rect) (side : HAlign) (d : ℝ) : sidePoint (rect k b) side (k * d) = point k (sidePoint b side d) := by
  cases side
  · show right _ (at_ _ _ _) = _
    rw [at_big, right_big]; rfl
  · simp [sidePoint, point]
  · show right _ (at_ _ _ _) = _
    rw [at_big, ← mul_neg, right_big]; rfl

variable {s t : PlotState φ}

theorem item_big (hk : 0 < k) {T : TextEnv φ} (hT : ScalableFonts T k) (hs : State k s t) (i : LegendItem φ) (b : Rect) :
    Grow k (ItemPicture T s i b) (ItemPicture T t (item k i) (rect k b)) := by
  unfold ItemPicture
  rw [dpi_big hs, hs.page.fonts]
  refine order_big (.cons ?_ (.cons ?_ .nil))
  · rw [show sidePoint (rect k b) (item k i).labelAlign (item k i).labelMargin = point k (sidePoint b i.labelAlign i.labelMargin)
      from sidePoint_big _ _ _]
    exact grow_text hk hT _ _ _ _ _ _ _ _
  · rw [show sidePoint (rect k b) (item k i).markerAlign (item k i).markerMargin = point k (sidePoint b i.markerAlign i.markerMargin)
      from sidePoint_big _ _ _]
    exact grow_marker hk hT _ _ _ _ _ _

theorem border_big (hk : 0 < k) (x : StrokeState) (p q : Vec2) :
    Grow k (Border x p q) (Border (stroke k x) (point k p) (point k q)) := by
  rintro _ rfl
  unfold Border
  have e : 0 < (stroke k x).width ↔ 0 < x.width := mul_pos_iff_of_pos_left hk
  by_cases h : 0 < x.width
  · rw [if_pos h, if_pos (e.2 h), show [point k p, point k q] = [p, q].map (point k) from rfl, polyline_big]; rfl
  · rw [if_neg h, if_neg fun h' => h (e.1 h')]; rfl

theorem legend_big (hk : 0 < k) (hT : ScalableFonts P.text k) (hs : State k s t) (c : LegendConf φ) :
    Grow k (LegendPicture P s c) (LegendPicture P t (legend k c)) := by
  rintro shapes ⟨sizes, boxes, w, h, h1, h2, h3⟩
  have hp : inset t.clip (legend k c).margins.1 (legend k c).margins.2.1 (legend k c).margins.2.2.1 (legend k c).margins.2.2.2 =
      rect k (inset s.clip c.margins.1 c.margins.2.1 c.margins.2.2.1 c.margins.2.2.2) := by
    rw [clip_big hk hs]; exact inset_big hk _ _ _ _ _
  refine ⟨sizes.map (pair k), boxes.map (rect k), k * w, k * h, ?_, ?_, ?_⟩
  · rw [dpi_big hs]
    show List.Forall₂ _ (c.items.map (item k)) _
    rw [List.forall₂_map_left_iff, List.forall₂_map_right_iff]
    exact h1.imp fun i x hx => itemSize_big hk hT hx
  · refine h2.imp (fun h => ⟨h.1, stacked_big hk h.2⟩) fun h => ⟨h.1, ?_⟩
    have := flowing_big hk h.2
    rw [hp]
    rw [mul_sub, mul_add] at this
    exact this
  · rw [hp]
    have e1 : k * w + ((legend k c).padding.2.1 + (legend k c).padding.2.2.2) = k * (w + (c.padding.2.1 + c.padding.2.2.2)) := by
      show k * w + (k * _ + k * _) = _
      ring
    have e2 : k * h + ((legend k c).padding.1 + (legend k c).padding.2.2.1) = k * (h + (c.padding.1 + c.padding.2.2.1)) := by
      show k * h + (k * _ + k * _) = _
      ring
    rw [e1, e2, placedIn_big hk]
    simp only
    have e3 : ∀ f : Rect, inset (rect k f) (legend k c).padding.1 (legend k c).padding.2.1 (legend k c).padding.2.2.1
        (legend k c).padding.2.2.2 = rect k (inset f c.padding.1 c.padding.2.1 c.padding.2.2.1 c.padding.2.2.2) :=
      fun f => inset_big hk _ _ _ _ _
    rw [show (legend k c).horiz = c.horiz from rfl, show (legend k c).vert = c.vert from rfl, e3]
    refine order_big (grow_append (grow_append ?_ ?_) ?_) _ h3
    · show List.Forall₂ _ _ (match c.background with | none => [] | some k => [Filled k _])
      cases c.background with
      | none => exact .nil
      | some col =>
        refine .cons ?_ .nil
        rw [whole_big]
        exact grow_filled _ _
    · simp only [at_big]
      exact .cons (border_big hk _ _ _) (.cons (border_big hk _ _ _) (.cons (border_big hk _ _ _) (.cons (border_big hk _ _ _) .nil)))
    · show List.Forall₂ _ _ (((c.items.map (item k)).zip (boxes.map (rect k))).map _)
      rw [List.zip_map, List.map_map]
      refine grow_map fun p _ => ?_
      simp only [Function.comp_apply, Prod.map_fst, Prod.map_snd, onPage_big]
      exact item_big hk hT hs _ _

end
end Clip.Enlarge
