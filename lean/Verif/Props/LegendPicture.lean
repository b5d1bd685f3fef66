import Verif.Props.LegendFlow
import Verif.Props.ElementPictures2
/-!
# C95: the picture of a legend
-/
namespace Clip
open LegendSpec Elements Pictures PlotSpec AxisSpec
set_option linter.unusedSimpArgs false
noncomputable section
variable {φ : Type}

theorem legendItemSize_iff {P : PlotEnv φ} {dpi : ℝ} {i : LegendItem φ} {e : ℝ × ℝ} :
    legendItemSize P dpi i = .ok e ↔ ItemSize P.text dpi i e := by
  unfold legendItemSize ItemSize
  constructor
  · intro h
    cases hb : measureLabel P.text dpi i.labelFonts i.labelFontSize i.label with
    | error f => rw [hb] at h; cases h
    | ok b =>
      rw [hb] at h
      simp only [Except.ok.injEq] at h
      exact ⟨b.w, b.h, measureLabel_ok.1 ⟨b, hb, rfl, rfl⟩, h.symm⟩
  · rintro ⟨w, h, he, rfl⟩
    obtain ⟨b, hb, rfl, rfl⟩ := measureLabel_ok.2 he
    rw [hb]

theorem legendSizes_iff {P : PlotEnv φ} {dpi : ℝ} : ∀ {is : List (LegendItem φ)} {es : List (ℝ × ℝ)},
    legendSizes P dpi is = .ok es ↔ List.Forall₂ (ItemSize P.text dpi) is es := by
  intro is
  induction is with
  | nil =>
    intro es
    rw [List.forall₂_nil_left_iff, legendSizes]
    simp [eq_comm]
  | cons i is ih =>
    intro es
    rw [List.forall₂_cons_left_iff, legendSizes]
    constructor
    · intro h
      cases h1 : legendItemSize P dpi i with
      | error f => rw [h1] at h; cases h
      | ok e =>
        cases h2 : legendSizes P dpi is with
        | error f => rw [h1, h2] at h; cases h
        | ok es' =>
          rw [h1, h2] at h
          simp only [Except.ok.injEq] at h
          exact ⟨e, es', legendItemSize_iff.1 h1, ih.1 h2, h.symm⟩
    · rintro ⟨e, es', h1, h2, rfl⟩
      rw [legendItemSize_iff.2 h1, ih.2 h2]

theorem legendBox_eq (c : LegendConf φ) (r : Rect) (w h : ℝ) : legendBox c r w h = placed c.horiz c.vert r w h := by
  unfold legendBox placed
  simp only [Rect.mk.injEq, and_true]
  constructor
  · cases c.horiz <;> simp only <;> ring
  · cases c.vert <;> simp only <;> ring

theorem itemBox_eq (content b : Rect) : itemBox content b = onPage content b := by
  unfold itemBox onPage
  simp only [Rect.mk.injEq, and_true, true_and]
  ring

theorem layoutMarginBox_eq (r : Rect) (t r' b l : ℝ) : layoutMarginBox r t r' b l = inset r t r' b l := by
  have := marginBox_eq r t r' b l 0 0 0 0
  simpa using this

theorem itemPoint_eq (b : Rect) (side : HAlign) (m : ℝ) : itemPoint b side m = sidePoint b side m := by
  unfold itemPoint sidePoint right at_
  cases side <;> simp only [Vec2.mk.injEq, and_true, true_and] <;> constructor <;> ring

theorem drawsA_border {F : List φ} {dpi : ℝ} (k : StrokeState) (p q : Vec2) :
    DrawsA F dpi (fun L => (legendBorder k p q L, none)) (Border k p q) := by
  intro L _ _ L'
  unfold legendBorder Border
  by_cases h : 0 < k.width
  · simp only [if_pos h, renderPath_eq, styled_line, if_neg (ne_of_gt h), Prod.mk.injEq, and_true, exists_eq_left]
    exact eq_comm
  · simp only [if_neg h, Prod.mk.injEq, and_true, exists_eq_left, draw_nil]
    exact eq_comm

theorem drawsA_item {P : PlotEnv φ} (hT : LevelsOfChars P.text) (s : PlotState φ) (i : LegendItem φ) (content b : Rect) :
    DrawsA s.layer.fonts s.layer.size.dpi (legendItemDraw P i (itemBox content b))
      (ItemPicture P.text s i (onPage content b)) := by
  unfold legendItemDraw ItemPicture
  apply chain_draws
  refine .cons ?_ (.cons ?_ .nil)
  · unfold legendLabel
    rw [itemPoint_eq, itemBox_eq]
    exact drawsA_text hT _ _ _ _ _ _ _
  · unfold legendMarker
    rw [itemPoint_eq, itemBox_eq]
    exact drawsA_marker hT _ _ _ _

/-- The background, if there is one. -/
def backgroundSteps (o : Option Color) (r : Rect) : List (Layer φ → Layer φ × Option Fail) :=
  match o with
  | none => []
  | some k => [fun L => (renderPath .default ⟨some k, none⟩ false (pathAddRect [] r) L, none)]

theorem legendSteps (P : PlotEnv φ) (c : LegendConf φ) (border : Rect) (boxes : List Rect) (L : Layer φ) :
    legendItems P (legendContent c border) c.items boxes (legendBorders c.borders border (match c.background with
      | some k => renderPath .default ⟨some k, none⟩ false (pathAddRect [] border) L
      | none => L)) =
    tryChain (backgroundSteps c.background border ++
      [fun L => (legendBorder c.borders.1 ⟨border.x, border.y⟩ ⟨border.x + border.w, border.y⟩ L, none),
       fun L => (legendBorder c.borders.2.1 ⟨border.x + border.w, border.y⟩ ⟨border.x + border.w, border.y + border.h⟩ L, none),
       fun L => (legendBorder c.borders.2.2.1 ⟨border.x, border.y + border.h⟩ ⟨border.x + border.w, border.y + border.h⟩ L, none),
       fun L => (legendBorder c.borders.2.2.2 ⟨border.x, border.y⟩ ⟨border.x, border.y + border.h⟩ L, none)] ++
      (c.items.zip boxes).map fun p => legendItemDraw P p.1 (itemBox (legendContent c border) p.2)) L := by
  unfold legendItems legendBorders backgroundSteps
  cases c.background <;> simp [tryChain]

theorem legendLayout_flow {c : LegendConf φ} (hf : c.flow = true) (mw : ℝ) (es : List (ℝ × ℝ)) :
    legendLayout c mw es =
      let r := flowLayout c.rowPadding c.columnPadding (mw - (c.padding.2.1 + c.padding.2.2.2)) es
      (r.1, r.2.1 + (c.padding.2.1 + c.padding.2.2.2), r.2.2 + (c.padding.1 + c.padding.2.2.1)) := by
  unfold legendLayout
  simp [hf, add_assoc]

theorem legendLayout_rows {c : LegendConf φ} (hf : c.flow = false) (mw : ℝ) (es : List (ℝ × ℝ)) :
    legendLayout c mw es =
      let r := rowsLayout c.rowPadding es 0 0
      (r.1, r.2.1 + (c.padding.2.1 + c.padding.2.2.2), r.2.2 + (c.padding.1 + c.padding.2.2.1)) := by
  unfold legendLayout
  simp [hf, add_assoc]

/-- The layout is the one of the specification. -/
theorem legendLayout_iff (c : LegendConf φ) (mw : ℝ) (es : List (ℝ × ℝ)) (boxes : List Rect) (w h : ℝ) :
    legendLayout c mw es = (boxes, w + (c.padding.2.1 + c.padding.2.2.2), h + (c.padding.1 + c.padding.2.2.1)) ↔
    ((c.flow = false ∧ Stacked c.rowPadding es boxes w h) ∨
     (c.flow = true ∧ Flowing c.rowPadding c.columnPadding (mw - (c.padding.2.1 + c.padding.2.2.2)) es boxes w h)) := by
  cases hf : c.flow
  · rw [legendLayout_rows hf, ← C95_rows]
    simp [Prod.ext_iff]
  · rw [legendLayout_flow hf, ← C95_flow]
    simp [Prod.ext_iff]

theorem area_eq (r : Rect) : pathAddRect [] r = area r := by
  simp [pathAddRect, area, ring, polyline, at_]

theorem drawsA_legend {P : PlotEnv φ} (hT : LevelsOfChars P.text) (s : PlotState φ) (c : LegendConf φ) (frame : Rect)
    (boxes : List Rect) : DrawsA s.layer.fonts s.layer.size.dpi
      (fun L => legendItems P (legendContent c frame) c.items boxes (legendBorders c.borders frame (match c.background with
        | some k => renderPath .default ⟨some k, none⟩ false (pathAddRect [] frame) L
        | none => L)))
      (InOrder ((match c.background with | none => [] | some k => [Filled k (area frame)]) ++
      [Border c.borders.1 (at_ frame 0 0) (at_ frame 1 0), Border c.borders.2.1 (at_ frame 1 0) (at_ frame 1 1),
       Border c.borders.2.2.1 (at_ frame 0 1) (at_ frame 1 1), Border c.borders.2.2.2 (at_ frame 0 0) (at_ frame 0 1)] ++
      (c.items.zip boxes).map fun p => ItemPicture P.text s p.1
        (onPage (inset frame c.padding.1 c.padding.2.1 c.padding.2.2.1 c.padding.2.2.2) p.2))) := by
  have hs := fun L : Layer φ => legendSteps P c frame boxes L
  intro L
  simp only [hs]
  revert L
  apply chain_draws
  refine List.rel_append (List.rel_append ?_ ?_) ?_
  · unfold backgroundSteps
    cases c.background with
    | none => exact .nil
    | some k =>
      refine .cons ?_ .nil
      have := drawsA_path (F := s.layer.fonts) (dpi := s.layer.size.dpi) .default ⟨some k, none⟩ false (pathAddRect [] frame)
      rw [styled_fill] at this
      rw [← area_eq]
      exact this
  · have hp : ∀ a b : ℝ, at_ frame a b = ⟨frame.x + a * frame.w, frame.y + b * frame.h⟩ := fun a b => rfl
    have h00 : at_ frame 0 0 = ⟨frame.x, frame.y⟩ := by simp [at_]
    have h10 : at_ frame 1 0 = ⟨frame.x + frame.w, frame.y⟩ := by simp [at_]
    have h01 : at_ frame 0 1 = ⟨frame.x, frame.y + frame.h⟩ := by simp [at_]
    have h11 : at_ frame 1 1 = ⟨frame.x + frame.w, frame.y + frame.h⟩ := by simp [at_]
    rw [h00, h10, h01, h11]
    exact .cons (drawsA_border _ _ _) (.cons (drawsA_border _ _ _) (.cons (drawsA_border _ _ _)
      (.cons (drawsA_border _ _ _) .nil)))
  · rw [List.forall₂_map_left_iff, List.forall₂_map_right_iff, List.forall₂_same]
    intro p _
    unfold legendContent
    rw [layoutMarginBox_eq]
    exact drawsA_item hT s p.1 _ p.2

/-- C95: what a legend draws. -/
theorem C95_legend (P : PlotEnv φ) (hT : LevelsOfChars P.text) (s s' : PlotState φ) (args : List Expr) :
    legendCmd P args s = (s', none) ↔ ∃ c shapes, legendConfigure P s args = .ok c ∧ LegendPicture P s c shapes ∧
      s' = { s with layer := draw s.layer shapes } := by
  unfold legendCmd
  rw [withConfig_iff]
  apply exists_congr
  intro c
  suffices h : legendRender P c s = (s', none) ↔ ∃ shapes, LegendPicture P s c shapes ∧
      s' = { s with layer := draw s.layer shapes } by
    rw [h]
    constructor
    · rintro ⟨h1, sh, h2, h3⟩; exact ⟨sh, h1, h2, h3⟩
    · rintro ⟨sh, h1, h2, h3⟩; exact ⟨h1, sh, h2, h3⟩
  unfold legendRender LegendPicture
  cases hs : legendSizes P s.layer.size.dpi c.items with
  | error f =>
    simp only [Prod.mk.injEq, reduceCtorEq, and_false, false_iff]
    rintro ⟨sh, ⟨es, _, _, _, h1, _⟩, _⟩
    rw [legendSizes_iff.2 h1] at hs
    cases hs
  | ok es =>
    simp only
    refine Iff.trans (drawOn_iff (drawsA_legend hT s c (legendBox c (legendParent c s.clip)
      (legendLayout c (legendParent c s.clip).w es).2.1 (legendLayout c (legendParent c s.clip).w es).2.2)
      (legendLayout c (legendParent c s.clip).w es).1)) ?_
    have hpar : legendParent c s.clip = inset s.clip c.margins.1 c.margins.2.1 c.margins.2.2.1 c.margins.2.2.2 :=
      layoutMarginBox_eq _ _ _ _ _
    rw [hpar, legendBox_eq]
    apply exists_congr
    intro shapes
    apply and_congr_left'
    constructor
    · intro h
      let mw := (inset s.clip c.margins.1 c.margins.2.1 c.margins.2.2.1 c.margins.2.2.2).w
      refine ⟨es, (legendLayout c mw es).1, (legendLayout c mw es).2.1 - (c.padding.2.1 + c.padding.2.2.2),
        (legendLayout c mw es).2.2 - (c.padding.1 + c.padding.2.2.1), legendSizes_iff.1 hs,
        (legendLayout_iff c mw es _ _ _).1 ?_, ?_⟩
      · simp [Prod.ext_iff]
      · rw [sub_add_cancel, sub_add_cancel]
        exact h
    · rintro ⟨es', boxes, w, h, h1, h2, h3⟩
      have he : es' = es := by
        have := legendSizes_iff.2 h1
        rw [hs] at this
        exact (Except.ok.inj this).symm
      subst he
      rw [(legendLayout_iff c _ es' boxes w h).2 h2]
      exact h3

end
end Clip
