import Verif.Spec.AxisDraw
import Verif.Props.DrawText
import Verif.Props.GLayout
import Verif.Lemmas.Plot
import Verif.Props.AxesMean
set_option linter.unusedSimpArgs false
/-!
# C91: what an axis looks like
-/
namespace Clip
open AxisSpec Pictures PlotSpec
variable {φ : Type} {P : PlotEnv φ}

/-! ## Numbers -/

theorem clampUnit_eq (v : ℝ) : clampUnit v = limited v := by
  unfold clampUnit limited
  split_ifs with h1 h2
  · rw [max_eq_left]; exact (min_le_right _ _).trans h1.le
  · rw [min_eq_left h2.le]; norm_num
  · rw [min_eq_right (not_lt.1 h2), max_eq_right (not_lt.1 h1)]

theorem limited_neg {v : ℝ} : limited v < 0 ↔ v < 0 := by
  unfold limited
  constructor
  · intro h
    by_contra hv
    have : 0 ≤ min 1 v := le_min (by norm_num) (not_lt.1 hv)
    have := this.trans (le_max_right (-1) _)
    linarith
  · intro h
    exact max_lt (by norm_num) ((min_le_right _ _).trans_lt h)

theorem measureOr_eq (m : Measure) (d : ℝ) : (measureOr m ⟨.unit, d⟩).value = orElse m d := by
  unfold measureOr orElse
  split_ifs <;> rfl

theorem labelPad_eq (a : AxisDef φ) : a.labelPad = labelGap a := by
  unfold AxisDef.labelPad labelGap
  rw [measureOr_eq, unitFromEm, mul_comm]

theorem titleEm_eq (al : AxisAlign) : titleEm al = open Classical in if Horizontal al then 0.8 else 0.6 := by
  cases al <;> simp [titleEm, Horizontal]

theorem titlePad_eq (a : AxisDef φ) : a.titlePad (titleEm a.align) = titleGap a := by
  unfold AxisDef.titlePad titleGap
  rw [measureOr_eq, unitFromEm, titleEm_eq, mul_comm]

/-! ## Lines -/

theorem renderLine_eq (k : StrokeState) (p q : Vec2) (L : Layer φ) : renderLine k p q L = draw L [line k p q] := by
  have : addStroke k.style (addFill .default Compound.none) = strokeOnly k := by
    unfold strokeOnly StrokeState.style addStroke addFill FillStyle.default Compound.none
    by_cases h : k.width = 0
    · simp [h]
    · by_cases h2 : k.dashed = true <;> simp [h, h2]
  unfold renderLine renderPath drawShape draw line polyline
  rw [this]
  rfl

theorem draw_draw (L : Layer φ) (s t : List DrawCmd) : draw (draw L s) t = draw L (s ++ t) := by
  simp [draw, List.append_assoc]

theorem draw_nil (L : Layer φ) : draw L [] = L := by simp [draw]

theorem draw_size (L : Layer φ) (s : List DrawCmd) : (draw L s).size = L.size := rfl

theorem draw_inj {L : Layer φ} {s t : List DrawCmd} (h : draw L s = draw L t) : s = t := by
  have := congrArg Layer.drawlist h
  simpa [draw] using this

/-! ## Text sizes -/

theorem tops_top {γ : Type} (gs : List (GlyphInfo γ)) : Top (gs.map (·.ascender)) (tops gs 0) := by
  obtain ⟨t1, t2, t3⟩ := tops_spec gs 0
  refine ⟨?_, t1, ?_⟩
  · rcases t3 with h | ⟨g, hg, h⟩
    · exact .inl h
    · exact .inr (List.mem_map.2 ⟨g, hg, h.symm⟩)
  · intro v hv
    obtain ⟨g, hg, rfl⟩ := List.mem_map.1 hv
    exact t2 g hg

theorem bottoms_bottom {γ : Type} (gs : List (GlyphInfo γ)) : Bottom (gs.map (·.descender)) (bottoms gs 0) := by
  obtain ⟨b1, b2, b3⟩ := bottoms_spec gs 0
  refine ⟨?_, b1, ?_⟩
  · rcases b3 with h | ⟨g, hg, h⟩
    · exact .inl h
    · exact .inr (List.mem_map.2 ⟨g, hg, h.symm⟩)
  · intro v hv
    obtain ⟨g, hg, rfl⟩ := List.mem_map.1 hv
    exact b2 g hg

theorem measureLabel_shaped {T : TextEnv φ} {dpi size : ℝ} {fonts : List φ} {text : Str} {gs : List (GlyphInfo (φ × Nat))}
    (h : Shaped (fun f => T.shapeRun f ⟨text, .ltr⟩ (size / dpi * 72) dpi) fonts gs) :
    measureLabel T dpi fonts size text = .ok ⟨0, bottoms gs 0, (gs.map (·.advance)).sum, tops gs 0 - bottoms gs 0⟩ := by
  have hg := (C84_fallback _ _ _).2 h
  have hok := layoutSpans_ok (fun t => shapeFallback (asExcept fun f => T.shapeRun f ⟨t, .ltr⟩ (size / dpi * 72) dpi) fonts)
    .ltr [text] [gs] (.cons hg .nil) 0 0 0
  unfold measureLabel unitToPt
  rw [layoutLine, hok]
  simp [width]

theorem measureLabel_ok {T : TextEnv φ} {dpi size : ℝ} {fonts : List φ} {text : Str} {w h : ℝ} :
    (∃ b, measureLabel T dpi fonts size text = .ok b ∧ b.w = w ∧ b.h = h) ↔ Extents T fonts size dpi text w h := by
  constructor
  · rintro ⟨b, hb, rfl, rfl⟩
    cases hg : shapeFallback (asExcept fun f => T.shapeRun f ⟨text, .ltr⟩ (size / dpi * 72) dpi) fonts with
    | error e =>
      unfold measureLabel unitToPt at hb
      rw [layoutLine] at hb
      simp only [layoutSpans, hg] at hb
      cases hb
    | ok gs =>
      have hs := (C84_fallback _ _ _).1 hg
      rw [measureLabel_shaped hs] at hb
      cases hb
      exact ⟨gs, _, _, hs, tops_top gs, bottoms_bottom gs, rfl, rfl⟩
  · rintro ⟨gs, t, b, hs, ht, hb, rfl, rfl⟩
    refine ⟨_, measureLabel_shaped hs, rfl, ?_⟩
    rw [top_unique ht (tops_top gs), bottom_unique hb (bottoms_bottom gs)]

theorem max_abs (A B : ℝ) : max (abs (A - B)) (abs (A + B)) = abs A + abs B := by
  rcases abs_cases A with ⟨h1, h2⟩ | ⟨h1, h2⟩ <;> rcases abs_cases B with ⟨h3, h4⟩ | ⟨h3, h4⟩ <;>
  rcases abs_cases (A - B) with ⟨h5, h6⟩ | ⟨h5, h6⟩ <;> rcases abs_cases (A + B) with ⟨h7, h8⟩ | ⟨h7, h8⟩ <;>
  rw [h1, h3, h5, h7] <;> refine le_antisymm (max_le ?_ ?_) ?_ <;> first
  | linarith
  | exact le_max_of_le_left (by linarith)
  | exact le_max_of_le_right (by linarith)

theorem rotatedBox_size (b : Rect) (angle : ℝ) :
    ((rotatedBox b angle).w, (rotatedBox b angle).h) = turnedSize b.w b.h angle := by
  unfold rotatedBox turnedSize
  by_cases h : angle = 0
  · simp [h]
  · rw [if_pos h, if_neg h, C31_rotate_eq]
    simp only
    have e1 : -angle * Real.pi / 180 = -(angle * Real.pi / 180) := by ring
    rw [e1, Real.sin_neg, Real.cos_neg]
    generalize Real.cos (angle * Real.pi / 180) = c
    generalize Real.sin (angle * Real.pi / 180) = i
    have habs : ∀ x : ℝ, abs (x / 2) = abs x / 2 := fun x => by rw [abs_div]; norm_num
    refine Prod.ext ?_ ?_
    · show 2 * max (abs (c * (b.w / 2) - -i * (b.h / 2))) (abs (c * (b.w / 2) + -i * (b.h / 2))) = _
      rw [max_abs, show c * (b.w / 2) = (b.w * c) / 2 by ring, show -i * (b.h / 2) = -((b.h * i) / 2) by ring, abs_neg, habs, habs]
      ring
    · show 2 * max (abs (c * (b.h / 2) + -i * (b.w / 2))) (abs (-(c * (b.h / 2)) + -i * (b.w / 2))) = _
      rw [show c * (b.h / 2) + -i * (b.w / 2) = (-i * (b.w / 2)) + c * (b.h / 2) by ring,
        show -(c * (b.h / 2)) + -i * (b.w / 2) = (-i * (b.w / 2)) - c * (b.h / 2) by ring, max_comm, max_abs,
        show c * (b.h / 2) = (b.h * c) / 2 by ring, show -i * (b.w / 2) = -((b.w * i) / 2) by ring, abs_neg, habs, habs]
      ring

theorem labelExtent_eq (al : AxisAlign) (b : Rect) (angle : ℝ) :
    labelExtent al (rotatedBox b angle) = ofSize al (turnedSize b.w b.h angle) := by
  rw [← rotatedBox_size]
  cases al <;> rfl

theorem titleExtent_eq {al : AxisAlign} (h : al ≠ .x ∧ al ≠ .y) (b : Rect) (angle : ℝ) :
    titleExtent al (rotatedBox b angle) = ofSize al (turnedSize b.w b.h angle) := by
  rw [← rotatedBox_size]
  cases al <;> first | rfl | simp at h

theorem room_ok {T : TextEnv φ} {fonts : List φ} {size dpi angle : ℝ} {al : AxisAlign} {text : Str} {x : ℝ} :
    Room T fonts size dpi angle al text x ↔ ∃ b, measureLabel T dpi fonts size text = .ok b ∧
      x = ofSize al (turnedSize b.w b.h angle) := by
  unfold Room
  constructor
  · rintro ⟨w, h, he, rfl⟩
    obtain ⟨b, hb, rfl, rfl⟩ := measureLabel_ok.2 he
    exact ⟨b, hb, rfl⟩
  · rintro ⟨b, hb, rfl⟩
    exact ⟨_, _, measureLabel_ok.1 ⟨b, hb, rfl, rfl⟩, rfl⟩

/-- The greatest of some numbers, at least `m`. -/
def TopFrom (m : ℝ) (vs : List ℝ) (t : ℝ) : Prop := (t = m ∨ t ∈ vs) ∧ m ≤ t ∧ ∀ v ∈ vs, v ≤ t

theorem topFrom_cons {m x : ℝ} {vs : List ℝ} {t : ℝ} : TopFrom m (x :: vs) t ↔ TopFrom (max m x) vs t := by
  unfold TopFrom
  constructor
  · rintro ⟨h1, h2, h3⟩
    have hx := h3 x (by simp)
    refine ⟨?_, max_le h2 hx, fun v hv => h3 v (by simp [hv])⟩
    rcases h1 with rfl | h1
    · exact .inl (le_antisymm (le_max_left _ _) (max_le le_rfl hx))
    · rcases List.mem_cons.1 h1 with rfl | h1
      · exact .inl (le_antisymm (le_max_right _ _) (max_le h2 le_rfl))
      · exact .inr h1
  · rintro ⟨h1, h2, h3⟩
    refine ⟨?_, (le_max_left _ _).trans h2, ?_⟩
    · rcases h1 with rfl | h1
      · rcases max_choice m x with h | h
        · exact .inl h
        · exact .inr (by rw [h]; simp)
      · exact .inr (by simp [h1])
    · intro v hv
      rcases List.mem_cons.1 hv with rfl | hv
      · exact (le_max_right _ _).trans h2
      · exact h3 v hv

theorem maxLabel_ok {T : TextEnv φ} {dpi : ℝ} {a : AxisDef φ} {ls : List (ℝ × Str)} {m x : ℝ} :
    maxLabel T dpi a ls m = .ok x ↔ ∃ rooms,
      List.Forall₂ (fun l x => Room T a.labelFonts a.labelFontSize dpi a.labelRotate a.align l.2 x) ls rooms ∧
        TopFrom m rooms x := by
  induction ls generalizing m with
  | nil =>
    rw [maxLabel]
    constructor
    · intro h; cases h; exact ⟨[], .nil, .inl rfl, le_rfl, by simp⟩
    · rintro ⟨_, hr, h⟩
      cases hr
      rcases h.1 with h | h
      · rw [h]
      · simp at h
  | cons l ls ih =>
    rw [maxLabel]
    cases hm : measureLabel T dpi a.labelFonts a.labelFontSize l.2 with
    | error f =>
      constructor
      · intro h; cases h
      · rintro ⟨_, hr, h⟩
        cases hr with
        | cons h1 _ =>
          obtain ⟨b, hb, _⟩ := room_ok.1 h1
          rw [hm] at hb; cases hb
    | ok b =>
      dsimp only
      rw [ih, labelExtent_eq]
      constructor
      · rintro ⟨rooms, h1, h2⟩
        exact ⟨_ :: rooms, .cons (room_ok.2 ⟨b, hm, rfl⟩) h1, topFrom_cons.2 h2⟩
      · rintro ⟨_, hr, h⟩
        cases hr with
        | cons h1 h2 =>
          obtain ⟨b', hb, rfl⟩ := room_ok.1 h1
          rw [hm] at hb; cases hb
          exact ⟨_, h2, topFrom_cons.1 h⟩

theorem labelRoom_ok {T : TextEnv φ} {dpi : ℝ} {a : AxisDef φ} {ls : List (ℝ × Str)} {x : ℝ} :
    maxLabel T dpi a ls 0 = .ok x ↔ LabelRoom T a dpi ls x := maxLabel_ok

theorem titleRoomBy_ok {a : AxisDef φ} {dpi x : ℝ} : axisTitleSize P dpi a = .ok x ↔
    Room P.text a.titleFonts a.titleFontSize dpi a.titleRotate (measured a.align) a.title x := by
  unfold axisTitleSize
  rw [room_ok]
  cases hm : measureLabel P.text dpi a.titleFonts a.titleFontSize a.title with
  | error f => simp
  | ok b =>
    dsimp only
    have e : titleExtent a.align (rotatedBox b a.titleRotate) = titleExtent (measured a.align) (rotatedBox b a.titleRotate) := by
      cases a.align <;> rfl
    rw [e, titleExtent_eq (by cases a.align <;> simp [measured])]
    constructor
    · intro e; cases e; exact ⟨b, rfl, rfl⟩
    · rintro ⟨b', e, rfl⟩; cases e; rfl

theorem measured_eq {al : AxisAlign} (h : al ≠ .x ∧ al ≠ .y) : measured al = al := by
  cases al <;> simp_all [measured]

theorem titleRoom_ok {a : AxisDef φ} (h : a.align ≠ .x ∧ a.align ≠ .y) {dpi x : ℝ} :
    axisTitleSize P dpi a = .ok x ↔ TitleRoom P.text a dpi x := by
  rw [titleRoomBy_ok, measured_eq h]; rfl

/-! ## Placements -/

theorem labelled_ok {ps : List ℝ} {ts : List Str} {ls : List (ℝ × Str)} :
    labelled ps ts = some ls ↔ ps.length ≤ ts.length ∧ ls = ps.zip ts := by
  induction ps generalizing ts ls with
  | nil =>
    rw [labelled]
    exact ⟨fun h => ⟨Nat.zero_le _, (Option.some.inj h).symm⟩, fun h => by rw [h.2]; rfl⟩
  | cons p ps ih =>
    cases ts with
    | nil => simp [labelled]
    | cons t ts =>
      simp only [labelled, Option.map_eq_some_iff, List.length_cons, List.zip_cons_cons, Nat.add_le_add_iff_right]
      constructor
      · rintro ⟨l, hl, rfl⟩
        obtain ⟨h1, rfl⟩ := ih.1 hl
        exact ⟨h1, rfl⟩
      · rintro ⟨h, rfl⟩
        exact ⟨_, ih.2 ⟨h, rfl⟩, rfl⟩

theorem layoutReturns_unique {σ : Type} {step : σ → σ ⊕ (ScaleLayout × LayoutRc)} {start : (ScaleLayout × LayoutRc) ⊕ σ}
    {r r' : ScaleLayout × LayoutRc} (h : LayoutReturns step start r) (h' : LayoutReturns step start r') : r = r' := by
  unfold LayoutReturns at h h'
  cases start with
  | inl _ => exact h.trans h'.symm
  | inr _ => exact Returns.unique h h'

theorem runTicks_unique {toS : Option ℝ → Str} {spec : TickSpec} {s : Scale} {fmt : Formatter} {l : ScaleLayout}
    {r r' : ScaleLayout × LayoutRc} (h : RunTicks toS spec s fmt l r) (h' : RunTicks toS spec s fmt l r') : r = r' := by
  unfold RunTicks at h h'
  cases spec with
  | interval _ _ _ => exact layoutReturns_unique h h'
  | alignat _ _ => exact layoutReturns_unique h h'
  | align _ => exact layoutReturns_unique h h'
  | linear _ => exact layoutReturns_unique h h'
  | expSteps _ _ => exact Returns.unique h.2 h'.2
  | exponential _ => exact Returns.unique h h'
  | subdivide _ => exact h.2.trans h'.2.symm
  | categorical => exact h.trans h'.symm
  | bounds => exact h.trans h'.symm
  | none => exact h.trans h'.symm

theorem mapM_id {α : Type} {l : List (Option α)} {r : List α} : l.mapM id = some r ↔ l = r.map some := by
  induction l generalizing r with
  | nil =>
    constructor
    · intro h; cases h; rfl
    · intro h
      cases r with
      | nil => rfl
      | cons _ _ => cases h
  | cons a l ih =>
    simp only [List.mapM_cons, id, Option.bind_eq_bind, Option.bind_eq_some_iff, Option.pure_def, Option.some.injEq]
    constructor
    · rintro ⟨x, rfl, r', hr, rfl⟩
      rw [ih.1 hr]; rfl
    · intro h
      cases r with
      | nil => cases h
      | cons x r =>
        simp only [List.map_cons, List.cons.injEq] at h
        exact ⟨x, h.1, r, ih.2 h.2, rfl⟩

theorem tickPositions_ok {spec : TickSpec} {s : Scale} {fmt : Formatter} {ps : List ℝ} {ts : List Str} :
    tickPositions P spec s fmt = some (ps, ts) ↔ Layout P spec s fmt ps ts := by
  unfold tickPositions Layout
  constructor
  · intro h
    simp only [Option.bind_eq_bind, Option.bind_eq_some_iff, Option.pure_def, Option.some.injEq, Prod.mk.injEq] at h
    obtain ⟨l, hl, q, hq, rfl, rfl⟩ := h
    unfold runTicks at hl
    split at hl
    · rename_i hex
      cases hl
      exact ⟨_, hex.choose.2, hex.choose_spec, mapM_id.1 hq, rfl⟩
    · cases hl
  · rintro ⟨out, rc, h, h1, rfl⟩
    have hr : runTicks P.toS spec s fmt = some out := by
      unfold runTicks
      have hex : ∃ r, RunTicks P.toS spec s fmt {} r := ⟨_, h⟩
      rw [dif_pos hex, runTicks_unique hex.choose_spec h]
    rw [hr]
    simp only [Option.bind_eq_bind, Option.bind_eq_some_iff, Option.pure_def, Option.some.injEq, Prod.mk.injEq]
    exact ⟨out, rfl, ps, mapM_id.2 h1, rfl, rfl⟩

theorem labelSpec_eq (a : AxisDef φ) : a.labelSpec = labelPlacement a := by
  unfold AxisDef.labelSpec layoutDefaults labelPlacement defaultLabels
  cases a.scale.kind <;> rfl

theorem tickSpec_eq (a : AxisDef φ) : a.tickSpec = AxisSpec.tickPlacement a := by
  unfold AxisDef.tickSpec layoutDefaults AxisSpec.tickPlacement labelPlacement defaultTicks defaultLabels
  cases a.scale.kind <;> rfl

/-! ## Drawing -/

/-- Coordinates across and along the axis are those of the specification. -/
def Geometry (al : AxisAlign) (r : Rect) (pt : ℝ → ℝ → Vec2) (at_ l0 l1 : ℝ) : Prop :=
  ∀ d u, pt (at_ + d) (l0 + (l1 - l0) * u) = across al d (along r al u)

theorem across_zero (al : AxisAlign) (p : Vec2) : across al 0 p = p := by cases al <;> simp [across]

theorem Geometry.start {al : AxisAlign} {r : Rect} {pt : ℝ → ℝ → Vec2} {at_ l0 l1 : ℝ} (h : Geometry al r pt at_ l0 l1) :
    pt at_ l0 = along r al 0 := by
  have := h 0 0
  rw [across_zero] at this
  simpa using this

theorem Geometry.stop {al : AxisAlign} {r : Rect} {pt : ℝ → ℝ → Vec2} {at_ l0 l1 : ℝ} (h : Geometry al r pt at_ l0 l1) :
    pt at_ l1 = along r al 1 := by
  have := h 0 1
  rw [across_zero] at this
  simpa using this

variable {a : AxisDef φ} {r : Rect} {pt : ℝ → ℝ → Vec2} {at_ l0 l1 : ℝ}

theorem tickMark_eq (h : Geometry a.align r pt at_ l0 l1) (dpi u : ℝ) (L : Layer φ) :
    tickMark a dpi pt at_ l0 l1 u L = draw L [tick a dpi r u] := by
  unfold tickMark tick
  simp only
  rw [renderLine_eq, measureOr_eq, clampUnit_eq, ← h, ← h]
  have e : unitFromPt 4 dpi = 4 / 72 * dpi := by unfold unitFromPt; ring
  rw [e]
  generalize orElse a.tickLength (4 / 72 * dpi) = len
  rw [show at_ - len + len * (limited a.tickOffset + 1) / 2 = at_ + len * ((limited a.tickOffset - 1) / 2) by ring,
    show at_ + len * ((limited a.tickOffset - 1) / 2) + len = at_ + len * ((limited a.tickOffset + 1) / 2) by ring]

theorem tickMarks_eq (h : Geometry a.align r pt at_ l0 l1) (us : List ℝ) (L : Layer φ) :
    us.foldl (fun L t => tickMark a L.size.dpi pt at_ l0 l1 t L) L = draw L (us.map (tick a L.size.dpi r)) := by
  induction us generalizing L with
  | nil => simp [draw_nil]
  | cons u us ih =>
    rw [List.foldl_cons, tickMark_eq h, ih, draw_draw, draw_size]
    rfl

theorem attach_eq (t : AxisAttach) : attachAlign t = attached t := by cases t <;> rfl

theorem axisLabel_ok (hT : LevelsOfChars P.text) (h : Geometry a.align r pt at_ l0 l1) {l : ℝ × Str} {L L' : Layer φ} :
    axisLabel P a pt at_ l0 l1 l L = (L', none) ↔
      ∃ shapes, LabelShapes P.text a L.size.dpi r l shapes ∧ L' = draw L shapes := by
  unfold axisLabel LabelShapes TurnedText labelPoint
  rw [C83_rotated P.text hT, h, labelPad_eq, clampUnit_eq, attach_eq]
  constructor
  · rintro ⟨h0, s, h1, h2⟩
    exact ⟨_, ⟨h0, s, h1, rfl⟩, h2⟩
  · rintro ⟨_, ⟨h0, s, h1, rfl⟩, h2⟩
    exact ⟨h0, s, h1, h2⟩

theorem axisLabels_ok (hT : LevelsOfChars P.text) (h : Geometry a.align r pt at_ l0 l1) {ls : List (ℝ × Str)}
    {L L' : Layer φ} :
    tryChain (ls.map (axisLabel P a pt at_ l0 l1)) L = (L', none) ↔
      ∃ shapes, List.Forall₂ (LabelShapes P.text a L.size.dpi r) ls shapes ∧ L' = draw L shapes.flatten := by
  induction ls generalizing L with
  | nil =>
    rw [List.map_nil, tryChain]
    constructor
    · intro e; cases e; exact ⟨[], .nil, by simp [draw_nil]⟩
    · rintro ⟨_, hs, rfl⟩; cases hs; simp [draw_nil]
  | cons l ls ih =>
    rw [List.map_cons, tryChain]
    constructor
    · intro e
      split at e
      · rename_i L1 h1
        obtain ⟨s, hs, rfl⟩ := (axisLabel_ok hT h).1 h1
        obtain ⟨ss, hss, rfl⟩ := ih.1 e
        exact ⟨s :: ss, .cons hs hss, by simp [draw_draw]⟩
      · cases (Prod.mk.inj e).2
    · rintro ⟨_, hs, rfl⟩
      cases hs with
      | cons h1 h2 =>
        rw [(axisLabel_ok hT h).2 ⟨_, h1, rfl⟩]
        dsimp only
        exact ih.2 ⟨_, h2, by simp [draw_draw]⟩

theorem titlePoint_eq (h : Geometry a.align r pt at_ l0 l1) (size room : ℝ) [Decidable
      ((clampUnit a.titleOffset < 0) ↔ (clampUnit a.labelOffset < 0))] :
    (pt (at_ + ((if (clampUnit a.titleOffset < 0) ↔ (clampUnit a.labelOffset < 0) then
      a.titlePad (titleEm a.align) + (size + a.labelPad) else a.titlePad (titleEm a.align)) + room * 0.5) *
      clampUnit a.titleOffset) (l0 + (l1 - l0) * 0.5)) = titlePoint a r size room := by
  rw [show (0.5 : ℝ) = 1 / 2 by norm_num, h, titlePad_eq, labelPad_eq]
  unfold titlePoint titleDistance
  have hs : ((clampUnit a.titleOffset < 0) ↔ (clampUnit a.labelOffset < 0)) ↔ SameSide a := by
    unfold SameSide
    rw [clampUnit_eq, clampUnit_eq, limited_neg, limited_neg]
  rw [← clampUnit_eq]
  by_cases h1 : SameSide a
  · rw [if_pos (hs.2 h1), if_pos h1]
    congr 1
    ring
  · rw [if_neg (mt hs.1 h1), if_neg h1]
    congr 1
    ring

theorem axisTitle_ok (hT : LevelsOfChars P.text) (h : Geometry a.align r pt at_ l0 l1) {size : ℝ} {L L' : Layer φ} :
    axisTitle P a (titleEm a.align) pt at_ l0 l1 size L = (L', none) ↔
      ∃ shapes, TitleShapesBy (measured a.align) P.text a L.size.dpi r size shapes ∧ L' = draw L shapes := by
  unfold axisTitle
  by_cases ht : a.title = []
  · rw [if_pos ht]
    constructor
    · intro e; cases e; exact ⟨[], .inl ⟨ht, rfl⟩, (draw_nil L).symm⟩
    · rintro ⟨s, h1, rfl⟩
      rcases h1 with ⟨_, rfl⟩ | ⟨_, _, h2, _⟩
      · rw [draw_nil]
      · exact absurd ht h2
  · rw [if_neg ht]
    constructor
    · intro e
      split at e
      · cases (Prod.mk.inj e).2
      · rename_i room hr
        obtain ⟨h0, s, h1, h2⟩ := (C83_rotated P.text hT ..).1 e
        refine ⟨_, .inr ⟨room, titleRoomBy_ok.1 hr, h0, s, ?_, rfl⟩, ?_⟩
        all_goals
          have e1 : (pt (at_ + ((if (clampUnit a.titleOffset < 0) ↔ (clampUnit a.labelOffset < 0) then
              a.titlePad (titleEm a.align) + (size + a.labelPad) else a.titlePad (titleEm a.align)) + room * 0.5) *
              clampUnit a.titleOffset) (l0 + (l1 - l0) * 0.5)) = titlePoint a r size room := by
            exact titlePoint_eq h size room
        · rw [e1] at h1; exact h1
        · rw [e1] at h2; exact h2
    · rintro ⟨s, h1, rfl⟩
      rcases h1 with ⟨h1, _⟩ | ⟨room, h1, h2, s, h3, rfl⟩
      · exact absurd h1 ht
      · rw [titleRoomBy_ok.2 h1]
        dsimp only
        have e1 : (pt (at_ + ((if (clampUnit a.titleOffset < 0) ↔ (clampUnit a.labelOffset < 0) then
              a.titlePad (titleEm a.align) + (size + a.labelPad) else a.titlePad (titleEm a.align)) + room * 0.5) *
              clampUnit a.titleOffset) (l0 + (l1 - l0) * 0.5)) = titlePoint a r size room := by
            exact titlePoint_eq h size room
        rw [e1]
        exact (C83_rotated P.text hT ..).2 ⟨h2, s, h3, rfl⟩

theorem labels_ok {ls : List (ℝ × Str)} : a.labels P = some ls ↔ ∃ ps ts,
    Layout P (labelPlacement a) a.scale (a.formatter P) ps ts ∧ ps.length ≤ ts.length ∧ ls = ps.zip ts := by
  unfold AxisDef.labels
  rw [labelSpec_eq]
  constructor
  · intro h
    simp only [Option.bind_eq_bind, Option.bind_eq_some_iff] at h
    obtain ⟨⟨ps, ts⟩, h1, h2⟩ := h
    obtain ⟨h3, h4⟩ := labelled_ok.1 h2
    exact ⟨ps, ts, tickPositions_ok.1 h1, h3, h4⟩
  · rintro ⟨ps, ts, h1, h2, rfl⟩
    rw [tickPositions_ok.2 h1]
    exact labelled_ok.2 ⟨h2, rfl⟩

theorem layout_unique {spec : TickSpec} {s : Scale} {fmt : Formatter} {ps ps' : List ℝ} {ts ts' : List Str}
    (h : Layout P spec s fmt ps ts) (h' : Layout P spec s fmt ps' ts') : ps = ps' ∧ ts = ts' := by
  have := tickPositions_ok.2 h
  rw [tickPositions_ok.2 h'] at this
  cases this
  exact ⟨rfl, rfl⟩

theorem axisDraw_ok (hT : LevelsOfChars P.text) (h : Geometry a.align r pt at_ l0 l1) {L L' : Layer φ} :
    axisDraw P a (titleEm a.align) pt at_ l0 l1 L = (L', none) ↔
      ∃ shapes, AxisPictureBy (measured a.align) P a (a.formatter P) L.size.dpi r shapes ∧ L' = draw L shapes := by
  unfold axisDraw
  dsimp only
  rw [renderLine_eq, h.start, h.stop]
  constructor
  · intro e
    split at e
    · cases (Prod.mk.inj e).2
    · rename_i ticks tts ht
      rw [tickMarks_eq h, draw_size, draw_draw] at e
      split at e
      · cases (Prod.mk.inj e).2
      · rename_i ls hl
        split at e
        · cases (Prod.mk.inj e).2
        · rename_i size hs
          unfold axisLabelSize at hs
          rw [hl] at hs
          split at e
          · cases (Prod.mk.inj e).2
          · rename_i L3 h3
            obtain ⟨ss, h4, rfl⟩ := (axisLabels_ok hT h).1 h3
            obtain ⟨tt, h5, rfl⟩ := (axisTitle_ok hT h).1 e
            obtain ⟨ps, ts, h6, h7, rfl⟩ := labels_ok.1 hl
            rw [tickSpec_eq] at ht
            refine ⟨_, ⟨ticks, tts, ps, ts, size, ss, tt, tickPositions_ok.1 ht, h6, h7, labelRoom_ok.1 hs, h4, h5, rfl⟩, ?_⟩
            rw [draw_draw, draw_draw]
            simp [List.append_assoc]
  · rintro ⟨_, ⟨ticks, tts, ps, ts, size, ss, tt, h1, h2, h3, h4, h5, h6, rfl⟩, rfl⟩
    rw [tickSpec_eq, tickPositions_ok.2 h1]
    dsimp only
    rw [tickMarks_eq h, draw_size, draw_draw]
    have hl : a.labels P = some (ps.zip ts) := labels_ok.2 ⟨ps, ts, h2, h3, rfl⟩
    have hs : axisLabelSize P L.size.dpi a = .ok size := by
      unfold axisLabelSize
      rw [hl]
      exact labelRoom_ok.2 h4
    rw [hl]
    dsimp only
    rw [hs]
    dsimp only
    rw [(axisLabels_ok (L := draw L ([line a.border (along r a.align 0) (along r a.align 1)] ++
      List.map (tick a L.size.dpi r) ticks)) hT h).2 ⟨ss, h5, rfl⟩]
    dsimp only
    refine (axisTitle_ok hT h).2 ⟨tt, h6, ?_⟩
    rw [draw_draw, draw_draw]
    simp [List.append_assoc]

/-- C91: an axis is drawn without error exactly if its ticks and labels can be placed and its texts be set, and then the
page has, after what was there, the line of the axis, its tick marks, its labels and its title, each at its place.  For the
distance of the title of an axis in the middle of the plot, its extent along the axis is taken (see `C91_title_extent`). -/
theorem C91_axis (P : PlotEnv φ) (hT : LevelsOfChars P.text) (a : AxisDef φ) (s s' : PlotState φ) :
    plotAxis P a s = (s', none) ↔ ∃ shapes, AxisPictureBy (measured a.align) P a (a.formatter P) s.layer.size.dpi s.clip shapes ∧
      s' = { s with layer := draw s.layer shapes } := by
  have key : ∀ {pt at_ l0 l1}, Geometry a.align s.clip pt at_ l0 l1 →
      (drawOn s (axisDraw P a (titleEm a.align) pt at_ l0 l1 s.layer) = (s', none) ↔
        ∃ shapes, AxisPictureBy (measured a.align) P a (a.formatter P) s.layer.size.dpi s.clip shapes ∧
          s' = { s with layer := draw s.layer shapes }) := by
    intro pt at_ l0 l1 h
    unfold drawOn
    constructor
    · intro e
      obtain ⟨e1, e2⟩ := Prod.mk.inj e
      obtain ⟨sh, h1, h2⟩ := (axisDraw_ok hT h).1 (Prod.ext rfl e2)
      exact ⟨sh, h1, e1.symm.trans (congrArg (fun L => ({ s with layer := L } : PlotState φ)) h2)⟩
    · rintro ⟨sh, h1, rfl⟩
      rw [(axisDraw_ok hT h).2 ⟨sh, h1, rfl⟩]
  unfold plotAxis
  cases hal : a.align <;> dsimp only <;> rw [hal] at key <;> refine key ?_ <;> intro d u <;>
    simp only [ptHorizontal, ptVertical, across, along, PlotSpec.at_, Vec2.mk.injEq] <;> constructor <;> ring

theorem pictureBy_eq {a : AxisDef φ} (ha : a.title = [] ∨ a.align ≠ .x ∧ a.align ≠ .y) :
    AxisPictureBy (measured a.align) P a = AxisPicture P a := by
  funext fmt dpi r shapes
  unfold AxisPicture
  rcases ha with ha | ha
  · have e : ∀ al dpi r room shapes, TitleShapesBy al P.text a dpi r room shapes ↔ shapes = [] := by
      intro al dpi r room shapes
      unfold TitleShapesBy TurnedText
      simp [ha]
    unfold AxisPictureBy
    simp only [e]
  · rw [measured_eq ha]

/-- C91: an axis is drawn without error exactly if its ticks and labels can be placed and its texts be set, and then the
page has, after what was there, the line of the axis, its tick marks, its labels and its title, each at its place.  Partial:
the axes with `align` `x` and `y` must not have a title (see `C91_title_extent`). -/
theorem C91_axis_partial (P : PlotEnv φ) (hT : LevelsOfChars P.text) (a : AxisDef φ)
    (ha : a.title = [] ∨ a.align ≠ .x ∧ a.align ≠ .y) (s s' : PlotState φ) :
    plotAxis P a s = (s', none) ↔ ∃ shapes, AxisPicture P a (a.formatter P) s.layer.size.dpi s.clip shapes ∧
      s' = { s with layer := draw s.layer shapes } := by
  rw [C91_axis P hT a, pictureBy_eq ha]

theorem clip_draw (s : PlotState φ) (sh : List DrawCmd) : ({ s with layer := draw s.layer sh } : PlotState φ).clip = s.clip :=
  rfl

theorem plotAxisIf_ok (hT : LevelsOfChars P.text) {a : AxisDef φ} (ha : a.align ≠ .x ∧ a.align ≠ .y) {s s' : PlotState φ} :
    plotAxisIf P a s = (s', none) ↔ ∃ shapes, Shown P a (a.formatter P) s.layer.size.dpi s.clip shapes ∧
      s' = { s with layer := draw s.layer shapes } := by
  unfold plotAxisIf Shown
  by_cases h : a.enable = true
  · rw [if_pos h, C91_axis_partial P hT a (.inr ha)]
    simp [h]
  · rw [if_neg h]
    have h' : a.enable = false := by simpa using h
    constructor
    · intro e; cases e; exact ⟨[], .inl ⟨h', rfl⟩, by rw [draw_nil]⟩
    · rintro ⟨sh, h1, rfl⟩
      rcases h1 with ⟨_, rfl⟩ | ⟨h1, _⟩
      · rw [draw_nil]
      · exact absurd h1 h

theorem labelRoom_unique {T : TextEnv φ} {dpi : ℝ} {a : AxisDef φ} {ls : List (ℝ × Str)} {x y : ℝ}
    (h : LabelRoom T a dpi ls x) (h' : LabelRoom T a dpi ls y) : x = y := by
  have := labelRoom_ok.2 h
  rw [labelRoom_ok.2 h'] at this
  cases this; rfl

/-- An axis that can be drawn has its room. -/
theorem axisPadding_ok {a : AxisDef φ} (ha : a.align ≠ .x ∧ a.align ≠ .y) {dpi : ℝ} {r : Rect} {shapes : List DrawCmd}
    (hs : Shown P a (a.formatter P) dpi r shapes) {room : ℝ} :
    axisPadding P dpi a = .ok room ↔ Reserved P a (a.formatter P) dpi room := by
  unfold axisPadding Reserved
  rcases hs with ⟨h, _⟩ | ⟨h, hp⟩
  · rw [if_neg (by simp [h])]
    constructor
    · intro e; cases e; exact .inl ⟨h, rfl⟩
    · rintro (⟨_, rfl⟩ | ⟨h1, _⟩)
      · rfl
      · simp [h] at h1
  · rw [if_pos h]
    obtain ⟨ticks, tts, ps, ts, size, ss, tt, h1, h2, h3, h4, h5, h6, _⟩ := hp
    have hl : a.labels P = some (ps.zip ts) := labels_ok.2 ⟨ps, ts, h2, h3, rfl⟩
    have hsz : axisLabelSize P dpi a = .ok size := by
      unfold axisLabelSize
      rw [hl]
      exact labelRoom_ok.2 h4
    unfold axisLayout
    rw [hsz, labelPad_eq, titlePad_eq]
    dsimp only
    by_cases ht : a.title = []
    · rw [if_pos ht]
      dsimp only
      constructor
      · intro e; cases e; exact .inr ⟨h, ps, ts, size, h2, h3, h4, .inl ⟨ht, rfl⟩⟩
      · rintro (⟨h1, _⟩ | ⟨_, ps', ts', size', g2, g3, g4, g5⟩)
        · simp [h] at h1
        · obtain ⟨rfl, rfl⟩ := layout_unique h2 g2
          cases labelRoom_unique h4 g4
          rcases g5 with ⟨_, rfl⟩ | ⟨g5, _⟩
          · rfl
          · exact absurd ht g5
    · rw [if_neg ht]
      obtain ⟨tr, htr⟩ : ∃ tr, TitleRoom P.text a dpi tr := by
        rcases h6 with ⟨h6, _⟩ | ⟨tr, h6, _⟩
        · exact absurd h6 ht
        · exact ⟨tr, h6⟩
      rw [(titleRoom_ok ha).2 htr]
      dsimp only
      constructor
      · intro e; cases e; exact .inr ⟨h, ps, ts, size, h2, h3, h4, .inr ⟨ht, tr, htr, rfl⟩⟩
      · rintro (⟨h1, _⟩ | ⟨_, ps', ts', size', g2, g3, g4, g5⟩)
        · simp [h] at h1
        · obtain ⟨rfl, rfl⟩ := layout_unique h2 g2
          cases labelRoom_unique h4 g4
          rcases g5 with ⟨g5, _⟩ | ⟨_, tr', g5, rfl⟩
          · exact absurd g5 ht
          · have := (titleRoom_ok ha).2 g5
            rw [(titleRoom_ok ha).2 htr] at this
            cases this; rfl

theorem axes_sides {P : PlotEnv φ} {s : PlotState φ} (hp : (s.env P).palette ≠ []) {args : List Expr} {c : AxesConf φ}
    (hc : axesConfigure P s args = .ok c) :
    c.top.align = .top ∧ c.right.align = .right ∧ c.bottom.align = .bottom ∧ c.left.align = .left := by
  by_cases hok : ∀ x ∈ args, Options.axesTakes P (s.env P) x
  · obtain ⟨o, ho, hl⟩ := (C90_axes P s hp args).2 hok
    have e := (hl c).1 hc
    subst e
    exact ⟨(ho.axis .top).align, (ho.axis .right).align, (ho.axis .bottom).align, (ho.axis .left).align⟩
  · exact absurd hc ((C90_axes P s hp args).1 hok c)

theorem marginBox_eq (r : Rect) (mt mr mb ml t r' b l : ℝ) :
    layoutMarginBox r (mt + t) (mr + r') (mb + b) (ml + l) = inset r (mt + t) (mr + r') (mb + b) (ml + l) := by
  unfold layoutMarginBox inset
  simp only [Rect.mk.injEq, true_and]
  constructor <;> congr 1 <;> ring

theorem chain_cons {σ ε : Type} {o : σ → σ × Option ε} {os : List (σ → σ × Option ε)} {s s' : σ} :
    tryChain (o :: os) s = (s', none) ↔ ∃ s₁, o s = (s₁, none) ∧ tryChain os s₁ = (s', none) := by
  rw [tryChain]
  constructor
  · intro h
    split at h
    · rename_i s₁ h1; exact ⟨s₁, h1, h⟩
    · cases (Prod.mk.inj h).2
  · rintro ⟨s₁, h1, h2⟩
    rw [h1]; exact h2

/-- C91: `axes` reserves the room for the axes that are shown, and the margins; what remains is the area of the rest of the
plot, along the sides of which the axes are drawn. -/
theorem C91_axes (P : PlotEnv φ) (hT : LevelsOfChars P.text) (s s' : PlotState φ) (hp : (s.env P).palette ≠ [])
    (args : List Expr) (c : AxesConf φ) (hc : axesConfigure P s args = .ok c) :
    axesCmd P args s = (s', none) ↔ ∃ top right bottom left area dt dr db dl,
      area = inset s.clip (c.margins.1 + top) (c.margins.2.1 + right) (c.margins.2.2.1 + bottom) (c.margins.2.2.2 + left) ∧
      (Reserved P c.top (c.top.formatter P) s.layer.size.dpi top ∧
        Shown P c.top (c.top.formatter P) s.layer.size.dpi area dt) ∧
      (Reserved P c.right (c.right.formatter P) s.layer.size.dpi right ∧
        Shown P c.right (c.right.formatter P) s.layer.size.dpi area dr) ∧
      (Reserved P c.bottom (c.bottom.formatter P) s.layer.size.dpi bottom ∧
        Shown P c.bottom (c.bottom.formatter P) s.layer.size.dpi area db) ∧
      (Reserved P c.left (c.left.formatter P) s.layer.size.dpi left ∧
        Shown P c.left (c.left.formatter P) s.layer.size.dpi area dl) ∧
      s' = { s with layer := draw s.layer (dt ++ dr ++ db ++ dl), layout := s.layout ++ [area] } ∧ s'.clip = area := by
  obtain ⟨a1, a2, a3, a4⟩ := axes_sides hp hc
  have n1 : c.top.align ≠ .x ∧ c.top.align ≠ .y := by rw [a1]; simp
  have n2 : c.right.align ≠ .x ∧ c.right.align ≠ .y := by rw [a2]; simp
  have n3 : c.bottom.align ≠ .x ∧ c.bottom.align ≠ .y := by rw [a3]; simp
  have n4 : c.left.align ≠ .x ∧ c.left.align ≠ .y := by rw [a4]; simp
  have hclip : ∀ (L : Layer φ) (box : Rect), ({ s with layer := L, layout := s.layout ++ [box] } : PlotState φ).clip = box := by
    intro L box
    simp [PlotState.clip, plotGetClip]
  have hcmd : axesCmd P args s = axesRender P c s := by
    unfold axesCmd withConfig
    rw [hc]
  rw [hcmd]
  unfold axesRender axesBox
  constructor
  · intro e
    split at e
    · cases (Prod.mk.inj e).2
    · rename_i box hb
      obtain ⟨s1, e1, e⟩ := chain_cons.1 e
      obtain ⟨s2, e2, e⟩ := chain_cons.1 e
      obtain ⟨s3, e3, e⟩ := chain_cons.1 e
      obtain ⟨s4, e4, e⟩ := chain_cons.1 e
      obtain ⟨dt, h1, rfl⟩ := (plotAxisIf_ok hT n1).1 e1
      obtain ⟨dr, h2, rfl⟩ := (plotAxisIf_ok hT n2).1 e2
      obtain ⟨db, h3, rfl⟩ := (plotAxisIf_ok hT n3).1 e3
      obtain ⟨dl, h4, rfl⟩ := (plotAxisIf_ok hT n4).1 e4
      rw [tryChain] at e
      cases e
      simp only [draw_size, clip_draw, hclip] at h1 h2 h3 h4
      cases p1 : axisPadding P s.layer.size.dpi c.top with
      | error f => rw [p1] at hb; cases hb
      | ok t =>
      cases p2 : axisPadding P s.layer.size.dpi c.right with
      | error f => rw [p1, p2] at hb; cases hb
      | ok r =>
      cases p3 : axisPadding P s.layer.size.dpi c.bottom with
      | error f => rw [p1, p2, p3] at hb; cases hb
      | ok b =>
      cases p4 : axisPadding P s.layer.size.dpi c.left with
      | error f => rw [p1, p2, p3, p4] at hb; cases hb
      | ok l =>
      rw [p1, p2, p3, p4] at hb
      cases hb
      rw [marginBox_eq] at *
      refine ⟨t, r, b, l, _, dt, dr, db, dl, rfl, ⟨(axisPadding_ok n1 h1).1 p1, h1⟩, ⟨(axisPadding_ok n2 h2).1 p2, h2⟩,
        ⟨(axisPadding_ok n3 h3).1 p3, h3⟩, ⟨(axisPadding_ok n4 h4).1 p4, h4⟩, ?_, ?_⟩
      · simp [draw_draw]
      · exact hclip _ _
  · rintro ⟨t, r, b, l, area, dt, dr, db, dl, rfl, ⟨p1, h1⟩, ⟨p2, h2⟩, ⟨p3, h3⟩, ⟨p4, h4⟩, rfl, _⟩
    rw [(axisPadding_ok n1 h1).2 p1, (axisPadding_ok n2 h2).2 p2, (axisPadding_ok n3 h3).2 p3, (axisPadding_ok n4 h4).2 p4]
    simp only [bind, Except.bind, pure, Except.pure]
    rw [marginBox_eq]
    refine chain_cons.2 ⟨_, (plotAxisIf_ok hT n1).2 ⟨dt, by simpa only [draw_size, clip_draw, hclip] using h1, rfl⟩, ?_⟩
    refine chain_cons.2 ⟨_, (plotAxisIf_ok hT n2).2 ⟨dr, by simpa only [draw_size, clip_draw, hclip] using h2, rfl⟩, ?_⟩
    refine chain_cons.2 ⟨_, (plotAxisIf_ok hT n3).2 ⟨db, by simpa only [draw_size, clip_draw, hclip] using h3, rfl⟩, ?_⟩
    refine chain_cons.2 ⟨_, (plotAxisIf_ok hT n4).2 ⟨dl, by simpa only [draw_size, clip_draw, hclip] using h4, rfl⟩, ?_⟩
    rw [tryChain]
    simp [draw_draw]

end Clip
