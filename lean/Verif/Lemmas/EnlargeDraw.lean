import Verif.Spec.EnlargeDraw
import Verif.Props.Enlarge
set_option linter.unusedSimpArgs false
/-! # Drawings at another resolution -/
namespace Clip.Enlarge
open Settings Drawing Pictures Options Whole
noncomputable section
variable {φ : Type} {k : ℝ} {E : ReadEnv} {z : LayerSize}

structure Resheet (k : ℝ) (E : ReadEnv) (z : LayerSize) : Prop where
  size : Resized k E z
  width : layerSize z.width z.dpi = k * layerSize E.size.width E.size.dpi
  height : layerSize z.height z.dpi = k * layerSize E.size.height E.size.dpi

/-- The conversions of units fit together. -/
def ConvBig (k : ℝ) (f g : UnitConvMap) : Prop :=
  ∀ u, u ≠ .px → ∀ a, f u = some a → ∃ b, g u = some b ∧ ∀ v, b v = k * a v

theorem conv_size (hz : Resized k E z) : ConvBig k (uconvSize E.size) (uconvSize z) := by
  intro u hu a ha
  cases u <;> simp only [uconvSize, Option.some.injEq, reduceCtorEq] at ha ⊢ <;> subst ha <;> refine ⟨_, rfl, fun v => ?_⟩
  · unfold unitFromMm; rw [hz.dpi]; ring
  · exact absurd rfl hu
  · unfold unitFromPt; rw [hz.dpi]; ring
  · unfold unitFromEm; rw [hz.em]; ring
  · unfold unitFromEm; rw [hz.em]; ring

theorem conv_width (hz : Resheet k E z) : ConvBig k (uconvWidth E.size) (uconvWidth z) := by
  intro u hu a ha
  cases u <;> simp only [uconvWidth, Option.some.injEq, reduceCtorEq] at ha ⊢ <;> subst ha <;> refine ⟨_, rfl, fun v => ?_⟩
  · unfold unitFromMm; rw [hz.size.dpi]; ring
  · exact absurd rfl hu
  · unfold unitFromPt; rw [hz.size.dpi]; ring
  · unfold unitFromPercent; rw [hz.width]; ring

theorem conv_height (hz : Resheet k E z) : ConvBig k (uconvHeight E.size) (uconvHeight z) := by
  intro u hu a ha
  cases u <;> simp only [uconvHeight, Option.some.injEq, reduceCtorEq] at ha ⊢ <;> subst ha <;> refine ⟨_, rfl, fun v => ?_⟩
  · unfold unitFromMm; rw [hz.size.dpi]; ring
  · exact absurd rfl hu
  · unfold unitFromPt; rw [hz.size.dpi]; ring
  · unfold unitFromPercent; rw [hz.height]; ring

theorem number_big {stod : Str → Option (ℝ × Nat)} {f g : UnitConvMap} (hf : ConvBig k f g) {e : Expr} {v : ℝ} (hp : NoPixels stod e)
    (h : exprToNumber stod f e = .ok v) : exprToNumber stod g e = .ok (k * v) := by
  unfold exprToNumber at h ⊢
  by_cases he : e.isValue = true
  · simp only [he, Bool.not_true, Bool.false_eq_true, if_false] at h ⊢
    have hs : Has e e.getValue := by
      cases e with
      | literal => exact .literal _
      | value => exact .value _
      | list => cases he
    cases hst : stod e.getValue with
    | none => rw [hst] at h; cases h
    | some q =>
      obtain ⟨x, pos⟩ := q
      have hpx := hp _ x pos hs hst
      simp only [hst] at h ⊢
      by_cases h1 : pos = e.getValue.length
      · rw [if_pos h1] at h ⊢
        by_cases h2 : x = 0
        · rw [if_pos h2] at h ⊢
          cases h
          rw [mul_zero]
        · rw [if_neg h2] at h; cases h
      · rw [if_neg h1] at h ⊢
        cases hu : unitParse (e.getValue.drop pos) with
        | none => rw [hu] at h; cases h
        | some u =>
          rw [hu] at h
          simp only at h ⊢
          have hne : u ≠ .px := by
            rintro rfl
            unfold unitParse at hu
            split_ifs at hu with h1 h2 <;> first | exact hpx h2 | exact hpx (by assumption) | cases hu
          cases ha : f u with
          | none => rw [ha] at h; cases h
          | some a =>
            obtain ⟨b, hb, hv⟩ := hf u hne a ha
            rw [ha] at h
            cases h
            rw [hb]
            exact congrArg Except.ok (hv x)
  · simp only [he, Bool.not_false, if_true] at h
    cases h

theorem has_args {stod : Str → Option (ℝ × Nat)} {c : Expr} (h : NoPixels stod c) {a : Expr} (ha : a ∈ argsOf c) : NoPixels stod a := by
  intro s v pos hs hst
  refine h s v pos ?_ hst
  unfold argsOf at ha
  split at ha
  · exact .list (.tail _ ha) hs
  · cases ha

theorem has_mem {stod : Str → Option (ℝ × Nat)} {es : List Expr} (h : NoPixels stod (.list es)) {a : Expr} (ha : a ∈ es) : NoPixels stod a :=
  fun s v pos hs hst => h s v pos (.list ha hs) hst

def AllPlain (stod : Str → Option (ℝ × Nat)) (es : List Expr) : Prop := ∀ e ∈ es, NoPixels stod e

theorem sizeOf_big (hz : Resized k E z) {args : List Expr} {v : ℝ} (hp : AllPlain E.stod args) (h : IsSize E args v) :
    IsSize (env E z) args (k * v) := by
  obtain ⟨e, rest, rfl, h⟩ := h
  exact ⟨e, rest, rfl, number_big (conv_size hz) (hp e (.head _)) h⟩

theorem sizes_big (hz : Resized k E z) {args : List Expr} {vs : List ℝ} (hp : AllPlain E.stod args) (h : AreSizes E args vs) :
    AreSizes (env E z) args (vs.map (k * ·)) := by
  unfold AreSizes at h ⊢
  induction h with
  | nil => exact .nil
  | cons h _ ih => exact .cons (number_big (conv_size hz) (hp _ (.head _)) h) (ih fun e he => hp e (.tail _ he))

theorem pair_big {f g f' g' : UnitConvMap} (hf : ConvBig k f f') (hg : ConvBig k g g') {args : List Expr} {v : Vec2}
    (hp : AllPlain E.stod args) (h : IsPair E f g args v) : IsPair (env E z) f' g' args (point k v) := by
  obtain ⟨a, b, rfl, h1, h2⟩ := h
  exact ⟨a, b, rfl, number_big hf (hp a (.head _)) h1, number_big hg (hp b (.tail _ (.head _))) h2⟩

theorem final_big {α : Type} {read read' : List Expr → α → Prop} {name : Str} {cs : List Expr} {g : α → α} {a b : α}
    (hr : ∀ c ∈ cs, nameOf c = some name → ∀ v, read (argsOf c) v → read' (argsOf c) (g v)) (h : Final read name cs a b) :
    Final read' name cs (g a) (g b) := by
  unfold Final lastArgs at h ⊢
  cases hl : (cs.filter fun c => nameOf c == some name).getLast? with
  | none => rw [hl] at h; exact congrArg g h
  | some c =>
    rw [hl] at h
    have hm := List.mem_filter.1 (List.mem_of_getLast? hl)
    exact hr c hm.1 (by simpa using hm.2) _ h

theorem inside {stod : Str → Option (ℝ × Nat)} {cs : List Expr} (hp : AllPlain stod cs) {c : Expr} (hc : c ∈ cs) : AllPlain stod (argsOf c) :=
  fun _ ha => has_args (hp c hc) ha

theorem hatch_big (hz : Resized k E z) {cs : List Expr} (hp : AllPlain E.stod cs) {h : FillHatch} (hm : HatchMeans E cs h) :
    HatchMeans (env E z) cs ⟨h.color, h.angle, k * h.offset, k * h.stride, k * h.width⟩ := by
  obtain ⟨h1, h2, h3, h4, h5, h6⟩ := hm
  refine ⟨fun c hc => ?_, h2, ?_, ?_, h5, ?_⟩
  · obtain ⟨n, hn, h⟩ := h1 c hc
    refine ⟨n, hn, ?_⟩
    rcases h with h | ⟨h, v, hv⟩ | h
    · exact .inl h
    · exact .inr (.inl ⟨h, _, sizeOf_big hz (inside hp hc) hv⟩)
    · exact .inr (.inr h)
  · rw [pt_big hz]; exact final_big (g := (k * ·)) (fun c hc _ v hv => sizeOf_big hz (inside hp hc) hv) h3
  · rw [pt_big hz]; exact final_big (g := (k * ·)) (fun c hc _ v hv => sizeOf_big hz (inside hp hc) hv) h4
  · have := final_big (g := (k * ·)) (fun c hc _ v hv => sizeOf_big hz (inside hp hc) hv) h6
    simpa using this

theorem solidMeans_big (hz : Resized k E z) {cs : List Expr} (hp : AllPlain E.stod cs) {s : StrokeSolid} (hm : SolidMeans E cs s) :
    SolidMeans (env E z) cs ⟨s.color, k * s.width⟩ := by
  obtain ⟨h1, h2, h3⟩ := hm
  refine ⟨fun c hc => ?_, h2, ?_⟩
  · obtain ⟨n, hn, h⟩ := h1 c hc
    refine ⟨n, hn, ?_⟩
    rcases h with h | ⟨h, v, hv⟩
    · exact .inl h
    · exact .inr ⟨h, _, sizeOf_big hz (inside hp hc) hv⟩
  · rw [pt_big hz]; exact final_big (g := (k * ·)) (fun c hc _ v hv => sizeOf_big hz (inside hp hc) hv) h3

theorem dash_big (hz : Resized k E z) {cs : List Expr} (hp : AllPlain E.stod cs) {s : StrokeDash} (hm : DashMeans E cs s) :
    DashMeans (env E z) cs ⟨s.color, k * s.width, s.pattern.map (k * ·), k * s.offset⟩ := by
  obtain ⟨h1, h2, h3, h4, h5⟩ := hm
  refine ⟨fun c hc => ?_, h2, ?_, ?_, ?_⟩
  · obtain ⟨n, hn, h⟩ := h1 c hc
    refine ⟨n, hn, ?_⟩
    rcases h with h | ⟨h, v, hv⟩ | ⟨h, v, hv⟩
    · exact .inl h
    · exact .inr (.inl ⟨h, _, sizeOf_big hz (inside hp hc) hv⟩)
    · exact .inr (.inr ⟨h, _, sizes_big hz (inside hp hc) hv⟩)
  · rw [pt_big hz]; exact final_big (g := (k * ·)) (fun c hc _ v hv => sizeOf_big hz (inside hp hc) hv) h3
  · have := final_big (g := List.map (k * ·)) (fun c hc _ v hv => sizes_big hz (inside hp hc) hv) h4
    simp only [List.map_cons, List.map_nil] at this
    rw [pt_big hz]; exact this
  · have := final_big (g := (k * ·)) (fun c hc _ v hv => sizeOf_big hz (inside hp hc) hv) h5
    simpa using this

theorem fillMeans_big (hz : Resized k E z) {args : List Expr} (hp : AllPlain E.stod args) {s : Compound} (h : FillMeans E args s) :
    FillMeans (env E z) args (style k s) := by
  cases h with
  | color h => exact .color h
  | solid hw h => exact .solid hw h
  | hatch hw h => exact .hatch hw (hatch_big hz (fun _ he => by cases he) h)
  | hatchWith hw h => exact .hatchWith hw (hatch_big hz (fun e he => has_mem (hp _ (.head _)) (.tail _ he)) h)

theorem strokeMeans_big (hz : Resized k E z) {args : List Expr} (hp : AllPlain E.stod args) {s : Compound} (h : StrokeMeans E args s) :
    StrokeMeans (env E z) args (style k s) := by
  cases h with
  | short h1 h2 => exact .short (sizeOf_big hz (fun e he => hp e (by simp at he; subst he; exact .head _)) h1) h2
  | solid hw h => exact .solid hw (solidMeans_big hz (fun _ he => by cases he) h)
  | solidWith hw h => exact .solidWith hw (solidMeans_big hz (fun e he => has_mem (hp _ (.head _)) (.tail _ he)) h)
  | dash hw h => exact .dash hw (dash_big hz (fun _ he => by cases he) h)
  | dashWith hw h => exact .dashWith hw (dash_big hz (fun e he => has_mem (hp _ (.head _)) (.tail _ he)) h)

theorem both_big (a b : Compound) : both (style k a) (style k b) = style k (both a b) := by
  simp [both, style]

/-- What is known about an option of the given name. -/
def PlainFor (stod : Str → Option (ℝ × Nat)) (cs : List Expr) : Prop :=
  ∀ c ∈ cs, nameOf c = some "text".toList ∨ nameOf c = some "font".toList ∨ NoPixels stod c

theorem names : ∀ n ∈ ["position".toList, "size".toList, "font-size".toList, "color".toList, "fill".toList, "stroke".toList],
    n ≠ "text".toList ∧ n ≠ "font".toList := by decide +kernel

theorem plain_named {stod : Str → Option (ℝ × Nat)} {cs : List Expr} (hp : PlainFor stod cs) {c : Expr} (hc : c ∈ cs) {n : Str}
    (hn : nameOf c = some n) (hw : n ∈ ["position".toList, "size".toList, "font-size".toList, "color".toList, "fill".toList, "stroke".toList]) :
    AllPlain stod (argsOf c) := by
  rcases hp c hc with h | h | h
  · rw [hn] at h; exact absurd (Option.some.inj h) (names n hw).1
  · rw [hn] at h; exact absurd (Option.some.inj h) (names n hw).2
  · exact fun _ ha => has_args h ha

theorem styleMeans_big (hz : Resized k E z) {cs : List Expr} {s : Compound} (h : StyleMeans E cs s) (hp : PlainFor E.stod cs) :
    StyleMeans (env E z) cs (style k s) := by
  induction h with
  | nil => exact .nil
  | color hn hv _ ih =>
    rw [← both_big]
    exact .color hn hv (ih fun c hc => hp c (.tail _ hc))
  | fill hn hv _ ih =>
    rw [← both_big]
    exact .fill hn (fillMeans_big hz (plain_named hp (.head _) hn (by simp)) hv) (ih fun c hc => hp c (.tail _ hc))
  | stroke hn hv _ ih =>
    rw [← both_big]
    exact .stroke hn (strokeMeans_big hz (plain_named hp (.head _) hn (by simp)) hv) (ih fun c hc => hp c (.tail _ hc))
  | other h1 h2 h3 _ ih => exact .other h1 h2 h3 (ih fun c hc => hp c (.tail _ hc))

theorem setting_big (hz : Resized k E z) {cs : List Expr} (hp : PlainFor E.stod cs) {c : Expr} (hc : c ∈ cs) {n : Str}
    (hn : nameOf c = some n) (h : StyleSetting E n (argsOf c)) : StyleSetting (env E z) n (argsOf c) := by
  rcases h with h | ⟨h, f, hf⟩ | ⟨h, f, hf⟩
  · exact .inl h
  · exact .inr (.inl ⟨h, _, fillMeans_big hz (plain_named hp hc hn (by simp [h])) hf⟩)
  · exact .inr (.inr ⟨h, _, strokeMeans_big hz (plain_named hp hc hn (by simp [h])) hf⟩)

theorem middle_big (hz : Resheet k E z) : (⟨(Pictures.page (env E z)).x / 2, (Pictures.page (env E z)).y / 2⟩ : Vec2) =
    point k ⟨(Pictures.page E).x / 2, (Pictures.page E).y / 2⟩ := by
  simp only [Pictures.page, point, hz.width, hz.height]
  ext <;> simp only [] <;> ring

theorem sheet_big (hz : Resheet k E z) : Pictures.page (env E z) = point k (Pictures.page E) := by
  simp only [Pictures.page, point, hz.width, hz.height]

theorem rect_big (hz : Resheet k E z) {cs : List Expr} (hp : PlainFor E.stod cs) {p s : Vec2} {st : Compound}
    (h : RectMeans E cs p s st) : RectMeans (env E z) cs (point k p) (point k s) (style k st) := by
  obtain ⟨h1, h2, h3, h4⟩ := h
  refine ⟨fun c hc => ?_, ?_, ?_, styleMeans_big hz.size h4 hp⟩
  · obtain ⟨n, hn, h⟩ := h1 c hc
    refine ⟨n, hn, ?_⟩
    rcases h with ⟨h, v, hv⟩ | ⟨h, v, hv⟩ | h
    · exact .inl ⟨h, _, pair_big (conv_width hz) (conv_height hz) (plain_named hp hc hn (by simp [h])) hv⟩
    · exact .inr (.inl ⟨h, _, pair_big (conv_size hz.size) (conv_size hz.size) (plain_named hp hc hn (by simp [h])) hv⟩)
    · exact .inr (.inr (setting_big hz.size hp hc hn h))
  · rw [middle_big hz]
    exact final_big (fun c hc hn v hv => pair_big (conv_width hz) (conv_height hz) (plain_named hp hc hn (by simp)) hv) h2
  · rw [sheet_big hz]
    exact final_big (fun c hc hn v hv => pair_big (conv_size hz.size) (conv_size hz.size) (plain_named hp hc hn (by simp)) hv) h3

theorem textMeans_big (hz : Resheet k E z) {loadFont : Str → Option φ} {own : List φ} {cs : List Expr} (hp : PlainFor E.stod cs) {t : Str}
    {p : Vec2} {fonts : List φ} {size : ℝ} {st : Compound} (h : TextMeans E loadFont own cs t p fonts size st) :
    TextMeans (env E z) loadFont own cs t (point k p) fonts (k * size) (style k st) := by
  obtain ⟨h1, h2, h3, h4, h5, h6⟩ := h
  refine ⟨fun c hc => ?_, h2, ?_, ?_, h5, styleMeans_big hz.size h6 hp⟩
  · obtain ⟨n, hn, h⟩ := h1 c hc
    refine ⟨n, hn, ?_⟩
    rcases h with ⟨h, v, hv⟩ | h | h | ⟨h, v, hv⟩ | h
    · exact .inl ⟨h, _, pair_big (conv_width hz) (conv_height hz) (plain_named hp hc hn (by simp [h])) hv⟩
    · exact .inr (.inl h)
    · exact .inr (.inr (.inl h))
    · exact .inr (.inr (.inr (.inl ⟨h, _, sizeOf_big hz.size (plain_named hp hc hn (by simp [h])) hv⟩)))
    · exact .inr (.inr (.inr (.inr (setting_big hz.size hp hc hn h))))
  · rw [middle_big hz]
    exact final_big (fun c hc hn v hv => pair_big (conv_width hz) (conv_height hz) (plain_named hp hc hn (by simp)) hv) h3
  · have := final_big (g := (k * ·)) (fun c hc hn v hv => sizeOf_big hz.size (plain_named hp hc hn (by simp)) hv) h4
    rw [← hz.size.em] at this
    exact this

theorem rectangle_big (p s : Vec2) : rectangle (point k p) (point k s) = path k (rectangle p s) := by
  simp only [rectangle, path, point, List.map_cons, List.map_nil, onPoints, mul_div_assoc, mul_add, mul_sub]

theorem orDefault_big (s d : Compound) : orDefault (style k s) (style k d) = style k (orDefault s d) := by
  obtain ⟨a, b, c, e⟩ := s
  cases a <;> cases b <;> cases c <;> cases e <;> rfl

theorem placed_style {γ : Type} {start : Vec2} {st : Compound} {gs : List (GlyphInfo γ)} {outlines : List Path}
    {shapes : List DrawCmd} (h : Pictures.Placed start st gs outlines shapes) :
    Pictures.Placed (point k start) (style k st) (gs.map (glyph k)) (outlines.map (path k)) (shapes.map (shape k)) := by
  obtain ⟨h1, h2, h3⟩ := h
  refine ⟨by simp [h1], by simp [h2], ?_⟩
  intro i p hp
  rw [List.getElem?_map] at hp
  obtain ⟨q, hq, rfl⟩ := Option.map_eq_some_iff.1 hp
  rw [List.getElem?_map, h3 i q hq, ← List.map_take, advance_big, sum_big]
  simp only [Option.map_some, shape]
  rw [← moved_big]
  simp only [point, mul_add]

theorem textShapes_style (hk : 0 < k) {T : TextEnv φ} (hT : ScalableFonts T k) {fonts : List φ} {size dpi : ℝ} {text : Str}
    {p : Vec2} {ax : HAlign} {ay : VAlign} {st : Compound} {shapes : List DrawCmd}
    (h : TextShapes T fonts size dpi text p ax ay st shapes) :
    TextShapes T fonts (k * size) (k * dpi) text (point k p) ax ay (style k st) (shapes.map (shape k)) := by
  obtain ⟨gs, os, start, top, bottom, h1, h2, h3, h4, h5, h6⟩ := h
  have e := points_size hk.ne' size dpi
  refine ⟨gs.map (glyph k), os.map (path k), point k start, k * top, k * bottom, ?_, ?_, ?_, ?_, ?_, placed_style h6⟩
  · rw [e]; exact typeset_big hT h1
  · rw [e, List.forall₂_map_left_iff, List.forall₂_map_right_iff]
    refine h2.imp fun g p hg => ?_
    show T.glyphPath g.glyph.1 _ _ g.glyph.2 = _
    rw [hT.outline, hg]; rfl
  · have := top_big hk h3
    rw [List.map_map] at this ⊢
    exact this
  · have := bottom_big hk h4
    rw [List.map_map] at this ⊢
    exact this
  · rw [advance_big, sum_big]
    obtain ⟨hx, hy⟩ := h5
    constructor
    · cases ax <;> simp only [point] at hx ⊢ <;> rw [← hx] <;> ring
    · cases ay <;> simp only [point] at hy ⊢ <;> rw [← hy] <;> ring

theorem drawCmd_big (hk : 0 < k) {T : TextEnv φ} (hT : ScalableFonts T k) {stod : Str → Option (ℝ × Nat)} {L M : Layer φ} (hp : Page k L M)
    (hd : M.defaultStyle = style k L.defaultStyle) {c : Expr} (hc : PlainDrawing stod c) {shapes : List DrawCmd} (h : Pictures.Draws T stod L c shapes) :
    Pictures.Draws T stod M c (shapes.map (shape k)) := by
  have hz : Resheet k (L.env stod) M.size := ⟨⟨hp.dpi, hp.fontSize⟩, hp.width, hp.height⟩
  have he : M.env stod = env (L.env stod) M.size := by unfold Layer.env; rw [hp.palette]
  cases h with
  | rectangle hn hm hs =>
    refine .rectangle hn (he ▸ rect_big hz hc hm) ?_
    rw [hs, hd, orDefault_big, rectangle_big]; rfl
  | text hn hm ht hs =>
    refine .text hn (by rw [he, hp.fonts]; exact textMeans_big hz hc hm) ht ?_
    rw [hd, orDefault_big, hp.dpi]
    exact textShapes_style hk hT hs

theorem all_big (hk : 0 < k) {T : TextEnv φ} (hT : ScalableFonts T k) {stod : Str → Option (ℝ × Nat)} {L M : Layer φ} (hp : Page k L M)
    (hd : M.defaultStyle = style k L.defaultStyle) {cs : List Expr} (hc : ∀ c ∈ cs, PlainDrawing stod c) {shapes : List (List DrawCmd)}
    (h : List.Forall₂ (Pictures.Draws T stod L) cs shapes) :
    List.Forall₂ (Pictures.Draws T stod M) cs (shapes.map (List.map (shape k))) := by
  induction h with
  | nil => exact .nil
  | cons h _ ih => exact .cons (drawCmd_big hk hT hp hd (hc _ (.head _)) h) (ih fun c h => hc c (.tail _ h))

theorem drawn_big {L M : Layer φ} (hp : Page k L M) (shapes : List (List DrawCmd)) :
    Page k (draw L shapes.flatten) (draw M (shapes.map (List.map (shape k))).flatten) :=
  ⟨hp.dpi, hp.width, hp.height, hp.fontSize, hp.fonts, hp.palette, hp.background, by
    simp only [draw, hp.shapes, List.map_append, List.map_flatten]⟩

end
end Clip.Enlarge
