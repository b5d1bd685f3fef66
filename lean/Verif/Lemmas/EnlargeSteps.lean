import Verif.Lemmas.EnlargeSides
set_option linter.unusedSimpArgs false
/-! # The parts of a plot at another resolution -/
namespace Clip.Enlarge
open Settings Drawing Pictures PlotSpec AxisSpec DataSpec Elements Options LegendSpec Whole
noncomputable section
variable {φ : Type} {k : ℝ} {P : PlotEnv φ}

theorem draw_big {L M : Layer φ} (h : Page k L M) (shapes : List DrawCmd) :
    Page k (draw L shapes) (draw M (shapes.map (shape k))) :=
  ⟨h.dpi, h.width, h.height, h.fontSize, h.fonts, h.palette, h.background, by
    show _ ++ _ = _
    rw [h.shapes, ← List.map_append]; rfl⟩

theorem draws_big {pic : PlotEnv φ → PlotState φ → List Expr → List DrawCmd → Prop} {s s' t : PlotState φ} {args : List Expr}
    (hs : State k s t) (hp : Grow k (pic P s args) (pic P t args)) (h : draws P pic args s s') :
    ∃ t', draws P pic args t t' ∧ State k s' t' := by
  obtain ⟨shapes, h1, rfl⟩ := h
  exact ⟨_, ⟨_, hp _ h1, rfl⟩, draw_big hs.page _, hs.scales, hs.margins, hs.layout⟩

theorem fits_big {α : Type} {settled : PlotEnv φ → PlotState φ → List Expr → α → Prop} {xs ys : α → List (DataBuffer (Option ℝ))}
    {g : α → α} {s s' t : PlotState φ} {args : List Expr} (hs : State k s t)
    (hc : ∀ c, settled P s args c → settled P t args (g c)) (hx : ∀ c, xs (g c) = xs c) (hy : ∀ c, ys (g c) = ys c)
    (h : fits P settled xs ys args s s') : ∃ t', fits P settled xs ys args t t' ∧ State k s' t' := by
  obtain ⟨c, x, y, h1, h2, h3, rfl⟩ := h
  refine ⟨{ t with scales := ⟨x, y⟩ }, ⟨g c, x, y, hc c h1, ?_, ?_, rfl⟩, hs.page, rfl, hs.margins, hs.layout⟩
  · rw [hx, hs.scales]; exact h2
  · rw [hy, hs.scales]; exact h3

theorem scaleX_big {f : ReadEnv → Effect Scale} (hf : ∀ E z, f (env E z) = f E) {s s' t : PlotState φ} {args : List Expr}
    (hs : State k s t) (h : onScaleX P f args s s') : ∃ t', onScaleX P f args t t' ∧ State k s' t' := by
  obtain ⟨x, h1, rfl⟩ := h
  refine ⟨{ t with scales := ⟨x, s.scales.y⟩ }, ⟨x, ?_, by rw [hs.scales]⟩, hs.page, rfl, hs.margins, hs.layout⟩
  rw [env_big hs, hf, hs.scales]; exact h1

theorem scaleY_big {f : ReadEnv → Effect Scale} (hf : ∀ E z, f (env E z) = f E) {s s' t : PlotState φ} {args : List Expr}
    (hs : State k s t) (h : onScaleY P f args s s') : ∃ t', onScaleY P f args t t' ∧ State k s' t' := by
  obtain ⟨x, h1, rfl⟩ := h
  refine ⟨{ t with scales := ⟨s.scales.x, x⟩ }, ⟨x, ?_, by rw [hs.scales]⟩, hs.page, rfl, hs.margins, hs.layout⟩
  rw [env_big hs, hf, hs.scales]; exact h1

/-- The step can be made at the other resolution. -/
def StepBig (k : ℝ) (P : PlotEnv φ) (q : String × Step φ) : Prop :=
  ∀ e, PlainCommand P e → nameOf e = some (String.toList q.1) → ∀ s s' t : PlotState φ, State k s t → q.2 (argsOf e) s s' →
    ∃ t', q.2 (argsOf e) t t' ∧ State k s' t'

/-! ## Polygons -/

def polygons (k : ℝ) (c : PolygonsConf) : PolygonsConf := { c with fill := fill k c.fill, stroke := stroke k c.stroke }

theorem polygons_takes {E : ReadEnv} {z : LayerSize} (hk : k ≠ 0) (hz : Resized k E z) :
    List.Forall₂ (TakesToo E.stod) (polygonsTakes P E) (polygonsTakes P (env E z)) :=
  List.rel_append (takes_all _) (by takesToo hk hz)

theorem polygons_means {E : ReadEnv} {z : LayerSize} (hz : Resized k E z) {cs : List Expr} (hc : ∀ c ∈ cs, Plain E.stod c) {a b : PolygonsConf}
    (h : PolygonsMeans P E cs a b) : PolygonsMeans P (env E z) cs (polygons k a) (polygons k b) :=
  ⟨h.known, h.x, h.y, h.polys, acts_big (g := fill k) (by growns hz) hc h.fill, acts_big (g := stroke k) (by growns hz) hc h.stroke⟩

theorem polygons_start {s t : PlotState φ} (hs : State k s t) : Defaults.polygons t = polygons k (Defaults.polygons s) := by
  unfold Defaults.polygons polygons
  rw [pt_state hs, solid_big, hs.scales]; rfl

theorem polygons_settled (hk : k ≠ 0) {s t : PlotState φ} (hs : State k s t) {cs : List Expr} (hc : ∀ c ∈ cs, Plain P.stod c) {c : PolygonsConf}
    (h : SettledPolygons P s cs c) : SettledPolygons P t cs (polygons k c) := by
  obtain ⟨ha, o, hm, hx, hy, h1, h2, rfl⟩ := h
  unfold SettledPolygons Settled
  rw [env_big hs, polygons_start hs]
  exact ⟨accepted_big (polygons_takes hk (resized hs)) hc ha, _, polygons_means (resized hs) hc hm, hx, hy, h1, h2, rfl⟩

theorem polys_solid {cs : List Expr} {a b : List Poly2} (h : Acts [("data", AddPolys P)] cs a b)
    (hc : ∀ c ∈ cs, ∀ ps, AddPolys P (argsOf c) [] ps → ∀ p ∈ ps, p.holes = []) (ha : ∀ p ∈ a, p.holes = []) : ∀ p ∈ b, p.holes = [] := by
  induction h with
  | nil => exact ha
  | act hn hf hact _ ih =>
    rw [List.mem_singleton] at hf
    cases hf
    refine ih (fun c hm => hc c (.tail _ hm)) ?_
    obtain ⟨k, f, as, rest, ps, h1, h2, h3, rfl⟩ := hact
    intro p hp
    rcases List.mem_append.1 hp with hp | hp
    · exact ha p hp
    · exact hc _ (.head _) ps ⟨k, f, as, rest, ps, h1, h2, h3, rfl⟩ p hp
  | skip _ _ ih => exact ih (fun c hm => hc c (.tail _ hm)) ha

theorem settled_solid {s : PlotState φ} {cs : List Expr} {c : PolygonsConf} (h : SettledPolygons P s cs c)
    (hc : ∀ c ∈ cs, ∀ ps, AddPolys P (argsOf c) [] ps → ∀ p ∈ ps, p.holes = []) : ∀ p ∈ c.polys, p.holes = [] := by
  obtain ⟨_, o, hm, hx, hy, _, _, rfl⟩ := h
  exact polys_solid hm.polys hc (fun p hp => by cases hp)

theorem outline_big (vs : List Vec2) : Elements.outline (vs.map (point k)) = path k (Elements.outline vs) := by
  unfold Elements.outline
  cases vs with
  | nil => rfl
  | cons => exact ring_big _

theorem polygon_big (hk : 0 < k) {s t : PlotState φ} (hs : State k s t) (c : PolygonsConf) (p : Poly2) (hp : p.holes = []) :
    Grow k (PolygonPart P s c p) (PolygonPart P t (polygons k c) p) := by
  rintro shapes ⟨cs, h1, h2⟩
  refine ⟨cs.map (point k), ?_, ?_⟩
  · rw [List.forall₂_map_right_iff]
    refine h1.imp fun v q hq => ?_
    obtain ⟨u, w, h3, h4, rfl⟩ := hq
    exact ⟨u, w, h3, h4, by rw [clip_big hk hs, at_big]⟩
  · rw [hp] at h2 ⊢
    simp only [List.map_nil, List.flatten_nil, List.append_nil] at h2 ⊢
    rw [outline_big]
    exact grow_shape hk.ne' _ _ _ _ h2

theorem polygonsFirst_big (hk : k ≠ 0) {s s' t : PlotState φ} (hs : State k s t) {args : List Expr} (hc : ∀ c ∈ args, Plain P.stod c)
    (h : ∃ c, SettledPolygons P s args c ∧
      s' = { s with scales := ⟨{ s.scales.x with hints := c.scales.x.hints }, { s.scales.y with hints := c.scales.y.hints }⟩ }) :
    ∃ t', (∃ c, SettledPolygons P t args c ∧
      t' = { t with scales := ⟨{ t.scales.x with hints := c.scales.x.hints }, { t.scales.y with hints := c.scales.y.hints }⟩ }) ∧
      State k s' t' := by
  obtain ⟨c, h1, rfl⟩ := h
  refine ⟨_, ⟨polygons k c, polygons_settled hk hs hc h1, rfl⟩, hs.page, ?_, hs.margins, hs.layout⟩
  show (⟨_, _⟩ : Scales) = ⟨_, _⟩
  rw [hs.scales]; rfl

theorem polygonsStep_big (hk : 0 < k) {s s' t : PlotState φ} (hs : State k s t) {args : List Expr} (hc : ∀ c ∈ args, Plain P.stod c)
    (hh : ∀ c ∈ args, ∀ ps, AddPolys P (argsOf c) [] ps → ∀ p ∈ ps, p.holes = [])
    (h : polygonsStep P args s s') : ∃ t', polygonsStep P args t t' ∧ State k s' t' := by
  obtain ⟨c, shapes, h1, h2, rfl⟩ := h
  refine ⟨_, ⟨polygons k c, shapes.map (shape k), polygons_settled hk.ne' hs hc h1, ?_, rfl⟩, ?_, ?_, hs.margins, hs.layout⟩
  · exact order_big (grow_map fun p hp => polygon_big hk hs c p (settled_solid h1 hh p hp)) _ h2
  · exact ⟨hs.page.dpi, hs.page.width, hs.page.height, hs.page.fontSize, hs.page.fonts, hs.page.palette, hs.page.background, by
      simp only [draw, hs.page.shapes, List.map_append]⟩
  · show (⟨_, _⟩ : Scales) = ⟨_, _⟩
    rw [hs.scales]; rfl

theorem first_big (hk : 0 < k) : ∀ q ∈ first P, StepBig k P q := by
  have hk' := hk.ne'
  unfold first
  refine List.forall_mem_cons.2 ⟨fun e he hn s s' t hs h => scaleX_big (fun _ _ => rfl) hs h, ?_⟩
  refine List.forall_mem_cons.2 ⟨fun e he hn s s' t hs h => scaleX_big (fun _ _ => rfl) hs h, ?_⟩
  refine List.forall_mem_cons.2 ⟨fun e he hn s s' t hs h => scaleX_big (fun _ _ => rfl) hs h, ?_⟩
  refine List.forall_mem_cons.2 ⟨fun e he hn s s' t hs h => scaleY_big (fun _ _ => rfl) hs h, ?_⟩
  refine List.forall_mem_cons.2 ⟨fun e he hn s s' t hs h => scaleY_big (fun _ _ => rfl) hs h, ?_⟩
  refine List.forall_mem_cons.2 ⟨fun e he hn s s' t hs h => scaleY_big (fun _ _ => rfl) hs h, ?_⟩
  refine List.forall_mem_cons.2 ⟨fun e he hn s s' t hs h => scaleX_big (P := P) (f := fun _ => ScaleWords P) (fun _ _ => rfl) hs h, ?_⟩
  refine List.forall_mem_cons.2 ⟨fun e he hn s s' t hs h => scaleY_big (P := P) (f := fun _ => ScaleWords P) (fun _ _ => rfl) hs h, ?_⟩
  refine List.forall_mem_cons.2 ⟨fun e he hn s s' t hs h => scaleX_big (fun _ _ => rfl) hs h, ?_⟩
  refine List.forall_mem_cons.2 ⟨fun e he hn s s' t hs h => scaleY_big (fun _ _ => rfl) hs h, ?_⟩
  refine List.forall_mem_cons.2 ⟨fun e he hn s s' t hs h =>
    fits_big (g := areas k) hs (fun c hc => areas_settled hk' hs he.options hc) (fun _ => rfl) (fun _ => rfl) h, ?_⟩
  refine List.forall_mem_cons.2 ⟨fun e he hn s s' t hs h =>
    fits_big (g := bars k) hs (fun c hc => bars_settled hk' hs he.options hc) (fun _ => rfl) (fun _ => rfl) h, ?_⟩
  refine List.forall_mem_cons.2 ⟨fun e he hn s s' t hs h =>
    fits_big (g := errorbars k) hs (fun c hc => errorbars_settled hk' hs he.options hc) (fun _ => rfl) (fun _ => rfl) h, ?_⟩
  refine List.forall_mem_cons.2 ⟨fun e he hn s s' t hs h =>
    fits_big (g := labels k) hs (fun c hc => labels_settled hk' hs he.options hc) (fun _ => rfl) (fun _ => rfl) h, ?_⟩
  refine List.forall_mem_cons.2 ⟨fun e he hn s s' t hs h =>
    fits_big (g := lines k) hs (fun c hc => lines_settled hk' hs he.options hc) (fun _ => rfl) (fun _ => rfl) h, ?_⟩
  refine List.forall_mem_cons.2 ⟨fun e he hn s s' t hs h =>
    fits_big (g := points k) hs (fun c hc => points_settled hk' hs he.options hc) (fun _ => rfl) (fun _ => rfl) h, ?_⟩
  refine List.forall_mem_cons.2 ⟨fun e he hn s s' t hs h => polygonsFirst_big hk' hs he.options h, ?_⟩
  refine List.forall_mem_cons.2 ⟨fun e he hn s s' t hs h =>
    fits_big (g := rectangles k) hs (fun c hc => rectangles_settled hk' hs he.options hc) (fun _ => rfl) (fun _ => rfl) h, ?_⟩
  refine List.forall_mem_cons.2 ⟨fun e he hn s s' t hs h =>
    fits_big (g := vectors k) hs (fun c hc => vectors_settled hk' hs he.options hc) (fun _ => rfl) (fun _ => rfl) h, ?_⟩
  exact List.forall_mem_nil _

theorem margin_big {put : ℝ → ℝ × ℝ × ℝ × ℝ → ℝ × ℝ × ℝ × ℝ} (hput : ∀ v m, put (k * v) (four k m) = four k (put v m))
    {s s' t : PlotState φ} {args : List Expr} (hs : State k s t) (hp : NotPixels P.stod args) (h : marginStep P put args s s') :
    ∃ t', marginStep P put args t t' ∧ State k s' t' := by
  obtain ⟨v, h1, rfl⟩ := h
  refine ⟨{ t with margins := put (k * v) t.margins }, ⟨k * v, ?_, rfl⟩, hs.page, hs.scales, ?_, hs.layout⟩
  · rw [env_big hs]; exact size_big (resized hs) hp h1
  · show put (k * v) t.margins = four k _
    rw [← hput, hs.margins]; rfl

theorem axes_step (hk : 0 < k) (hT : ScalableFonts P.text k) {s s' t : PlotState φ} {args : List Expr} (hs : State k s t)
    (hc : ∀ c ∈ args, Plain P.stod c) (ha : ∀ σ, ∀ c ∈ optionsFor σ args, Plain P.stod c) (h : axesStep P args s s') :
    ∃ t', axesStep P args t t' ∧ State k s' t' := by
  obtain ⟨c, top, right, bottom, left, area, dt, dr, db, dl, h1, rfl, ⟨a1, a2⟩, ⟨b1, b2⟩, ⟨c1, c2⟩, ⟨d1, d2⟩, rfl⟩ := h
  have harea : inset t.clip ((axes k c).margins.1 + k * top) ((axes k c).margins.2.1 + k * right)
      ((axes k c).margins.2.2.1 + k * bottom) ((axes k c).margins.2.2.2 + k * left) =
      rect k (inset s.clip (c.margins.1 + top) (c.margins.2.1 + right) (c.margins.2.2.1 + bottom) (c.margins.2.2.2 + left)) := by
    rw [clip_big hk hs, ← inset_big hk, mul_add, mul_add, mul_add, mul_add]; rfl
  refine ⟨_, ⟨axes k c, k * top, k * right, k * bottom, k * left, _, dt.map (shape k), dr.map (shape k), db.map (shape k), dl.map (shape k),
    axes_settled hk.ne' hs hc ha h1, harea.symm, ?_, ?_, ?_, ?_, rfl⟩, ?_⟩
  case refine_5 =>
    refine ⟨?_, hs.scales, hs.margins, ?_⟩
    · have := draw_big hs.page (dt ++ dr ++ db ++ dl)
      simp only [List.map_append] at this
      exact this
    · show t.layout ++ [_] = List.map _ (s.layout ++ [_])
      rw [List.map_append, hs.layout]; rfl
  all_goals rw [dpi_big hs]
  · exact ⟨reserved_big hk hT a1, shown_big hk hT _ _ _ _ _ a2⟩
  · exact ⟨reserved_big hk hT b1, shown_big hk hT _ _ _ _ _ b2⟩
  · exact ⟨reserved_big hk hT c1, shown_big hk hT _ _ _ _ _ c2⟩
  · exact ⟨reserved_big hk hT d1, shown_big hk hT _ _ _ _ _ d2⟩

theorem zip_big (r : Rect) (us vs : List ℝ) :
    ((us.zip vs).map fun p => at_ (rect k r) p.1 p.2) = ((us.zip vs).map fun p => at_ r p.1 p.2).map (point k) := by
  rw [List.map_map]
  exact List.map_congr_left fun p _ => at_big _ _ _

variable {s t : PlotState φ} {args : List Expr}

theorem linesOf_big (hk : 0 < k) (hT : ScalableFonts P.text k) (hs : State k s t) (hc : ∀ c ∈ args, Plain P.stod c) :
    Grow k (LinesOf P s args) (LinesOf P t args) := by
  rintro shapes ⟨c, us, vs, h1, h2, h3, h4, h5, h6, h7⟩
  exact ⟨lines k c, us, vs, lines_settled hk.ne' hs hc h1, h2, h3, h4, h5, h6, lines_big hk hT hs c us vs _ h7⟩

theorem pointsOf_big (hk : 0 < k) (hT : ScalableFonts P.text k) (hs : State k s t) (hc : ∀ c ∈ args, Plain P.stod c) :
    Grow k (PointsOf P s args) (PointsOf P t args) := by
  rintro shapes ⟨c, us, vs, h1, h2, h3, h4, h5, h6⟩
  exact ⟨points k c, us, vs, points_settled hk.ne' hs hc h1, h2, h3, h4, h5, points_big hk hT hs c us vs _ h6⟩

theorem labelsOf_big (hk : 0 < k) (hT : ScalableFonts P.text k) (hs : State k s t) (hc : ∀ c ∈ args, Plain P.stod c) :
    Grow k (LabelsOf P s args) (LabelsOf P t args) := by
  rintro shapes ⟨c, us, vs, h1, h2, h3, h4, h5, h6⟩
  exact ⟨labels k c, us, vs, labels_settled hk.ne' hs hc h1, h2, h3, h4, h5, labels_big hk hT hs c us vs _ h6⟩

theorem barsOf_big (hk : 0 < k) (hT : ScalableFonts P.text k) (hs : State k s t) (hc : ∀ c ∈ args, Plain P.stod c) :
    Grow k (BarsOf P s args) (BarsOf P t args) := by
  rintro shapes ⟨c, us, vs, lows, h1, h2, h3, h4, h5, h6⟩
  refine ⟨bars k c, us, vs, lows, bars_settled hk.ne' hs hc h1, h2, h3, h4, h5, ?_⟩
  rcases h6 with ⟨h6, h7, h8⟩ | ⟨h6, h7, h8⟩
  · exact .inl ⟨h6, h7, columns_big hk hT hs c us vs lows _ h8⟩
  · exact .inr ⟨h6, h7, rows_big hk hT hs c us vs lows _ h8⟩

theorem areasOf_big (hk : 0 < k) (hs : State k s t) (hc : ∀ c ∈ args, Plain P.stod c) :
    Grow k (AreasOf P s args) (AreasOf P t args) := by
  rintro shapes ⟨c, us, vs, uos, vos, lows, h1, h2, h3, h4, h5, h6, h7⟩
  refine ⟨areas k c, us, vs, uos, vos, lows, areas_settled hk.ne' hs hc h1, h2, h3, h4, h5, h6, ?_⟩
  rw [clip_big hk hs, zip_big, zip_big, zip_big]
  rcases h7 with ⟨h7, h8, h9⟩ | ⟨h7, h8, h9⟩
  · exact .inl ⟨h7, h8, area_big hk c _ _ _ h9⟩
  · exact .inr ⟨h7, h8, area_big hk c _ _ _ h9⟩

theorem errorbarsOf_big (hk : 0 < k) (hs : State k s t) (hc : ∀ c ∈ args, Plain P.stod c) :
    Grow k (ErrorbarsOf P s args) (ErrorbarsOf P t args) := by
  rintro shapes ⟨c, us, ul, uh, vs, vl, vh, h1, h2, h3, h4⟩
  refine ⟨errorbars k c, us, ul, uh, vs, vl, vh, errorbars_settled hk.ne' hs hc h1, h2, h3, ?_⟩
  rcases h4 with ⟨h4, h5, h6, h7, h8⟩ | ⟨h4, h5, h6, h7, h8⟩
  · exact .inl ⟨h4, h5, h6, h7, vertical_big hk hs c _ _ _ _ h8⟩
  · exact .inr ⟨h4, h5, h6, h7, horizontal_big hk hs c _ _ _ _ h8⟩

theorem rectanglesOf_big (hk : 0 < k) (hs : State k s t) (hc : ∀ c ∈ args, Plain P.stod c) :
    Grow k (RectanglesOf P s args) (RectanglesOf P t args) := by
  rintro shapes ⟨c, us, vs, ws, hs', h1, h2, h3, h4, h5, h6, h7⟩
  exact ⟨rectangles k c, us, vs, ws, hs', rectangles_settled hk.ne' hs hc h1, h2, h3, h4, h5, h6, rectangles_big hk hs c _ _ _ _ _ h7⟩

theorem vectorsOf_big (hk : 0 < k) (hs : State k s t) (hc : ∀ c ∈ args, Plain P.stod c) :
    Grow k (VectorsOf P s args) (VectorsOf P t args) := by
  rintro shapes ⟨c, us, vs, dus, dvs, h1, h2, h3, h4, h5, h6, h7, h8, h9⟩
  exact ⟨vectors k c, us, vs, dus, dvs, vectors_settled hk.ne' hs hc h1, h2, h3, h4, h5, h6, h7, h8, vectors_big hk hs c _ _ _ _ _ h9⟩

theorem gridOf_big (hk : 0 < k) (hs : State k s t) (hc : ∀ c ∈ args, Plain P.stod c) :
    Grow k (GridOf P s args) (GridOf P t args) := by
  rintro shapes ⟨c, us, vs, tus, tvs, h1, h2, h3, h4⟩
  exact ⟨grid k c, us, vs, tus, tvs, grid_settled hk.ne' hs hc h1, h2, h3, grid_big hk hs c _ _ _ h4⟩

theorem backgroundOf_big (hk : 0 < k) (hs : State k s t) (hc : ∀ c ∈ args, Plain P.stod c) :
    Grow k (BackgroundOf P s args) (BackgroundOf P t args) := by
  rintro shapes ⟨c, h1, h2⟩
  refine ⟨background k c, background_settled hk.ne' hs hc h1, ?_⟩
  rw [clip_big hk hs, whole_big]
  exact grow_shape hk.ne' _ _ _ _ h2

theorem legendOf_big (hk : 0 < k) (hT : ScalableFonts P.text k) (hs : State k s t) (hc : ∀ c ∈ args, PlainPart P.stod c) :
    Grow k (LegendOf P s args) (LegendOf P t args) := by
  rintro shapes ⟨c, h1, h2⟩
  exact ⟨legend k c, legend_settled hk.ne' hs hc h1, legend_big hk hT hs c _ h2⟩

theorem axisOf_big (hk : 0 < k) (hT : ScalableFonts P.text k) (hs : State k s t) (hc : ∀ c ∈ args, Plain P.stod c) :
    Grow k (AxisOf P s args) (AxisOf P t args) := by
  rintro shapes ⟨a, h1, h2⟩
  refine ⟨axis k a, axis_settled hk.ne' hs hc h1, ?_⟩
  rw [clip_big hk hs, dpi_big hs]
  exact axis_big hk hT _ _ _ _ _ _ h2

theorem second_big (hk : 0 < k) (hT : ScalableFonts P.text k) : ∀ q ∈ second P, StepBig k P q := by
  unfold second
  refine List.forall_mem_cons.2 ⟨fun e he hn s s' t hs h => margin_big (P := P) (put := fun v _ => (v, v, v, v)) (fun _ _ => rfl) hs (he.margin "margin" (by decide +kernel) hn) h, ?_⟩
  refine List.forall_mem_cons.2 ⟨fun e he hn s s' t hs h => margin_big (P := P) (put := fun v m => (v, m.2)) (fun _ _ => rfl) hs (he.margin "margin-top" (by decide +kernel) hn) h, ?_⟩
  refine List.forall_mem_cons.2 ⟨fun e he hn s s' t hs h => margin_big (P := P) (put := fun v m => (m.1, v, m.2.2)) (fun _ _ => rfl) hs (he.margin "margin-right" (by decide +kernel) hn) h, ?_⟩
  refine List.forall_mem_cons.2 ⟨fun e he hn s s' t hs h => margin_big (P := P) (put := fun v m => (m.1, m.2.1, v, m.2.2.2)) (fun _ _ => rfl) hs (he.margin "margin-bottom" (by decide +kernel) hn) h, ?_⟩
  refine List.forall_mem_cons.2 ⟨fun e he hn s s' t hs h => margin_big (P := P) (put := fun v m => (m.1, m.2.1, m.2.2.1, v)) (fun _ _ => rfl) hs (he.margin "margin-left" (by decide +kernel) hn) h, ?_⟩
  refine List.forall_mem_cons.2 ⟨fun e he hn s s' t hs h => axes_step hk hT hs he.options (he.axes hn) h, ?_⟩
  refine List.forall_mem_cons.2 ⟨fun e he hn s s' t hs h => draws_big hs (axisOf_big hk hT hs he.options) h, ?_⟩
  refine List.forall_mem_cons.2 ⟨fun e he hn s s' t hs h => draws_big hs (gridOf_big hk hs he.options) h, ?_⟩
  refine List.forall_mem_cons.2 ⟨fun e he hn s s' t hs h => draws_big hs (backgroundOf_big hk hs he.options) h, ?_⟩
  refine List.forall_mem_cons.2 ⟨fun e he hn s s' t hs h =>
    draws_big hs (legendOf_big hk hT hs fun c hc => ⟨he.options c hc, he.items hn c hc⟩) h, ?_⟩
  refine List.forall_mem_cons.2 ⟨fun e he hn s s' t hs h => draws_big hs (areasOf_big hk hs he.options) h, ?_⟩
  refine List.forall_mem_cons.2 ⟨fun e he hn s s' t hs h => draws_big hs (barsOf_big hk hT hs he.options) h, ?_⟩
  refine List.forall_mem_cons.2 ⟨fun e he hn s s' t hs h => draws_big hs (errorbarsOf_big hk hs he.options) h, ?_⟩
  refine List.forall_mem_cons.2 ⟨fun e he hn s s' t hs h => draws_big hs (labelsOf_big hk hT hs he.options) h, ?_⟩
  refine List.forall_mem_cons.2 ⟨fun e he hn s s' t hs h => draws_big hs (linesOf_big hk hT hs he.options) h, ?_⟩
  refine List.forall_mem_cons.2 ⟨fun e he hn s s' t hs h => draws_big hs (pointsOf_big hk hT hs he.options) h, ?_⟩
  refine List.forall_mem_cons.2 ⟨fun e he hn s s' t hs h => polygonsStep_big hk hs he.options (he.holes hn) h, ?_⟩
  refine List.forall_mem_cons.2 ⟨fun e he hn s s' t hs h => draws_big hs (rectanglesOf_big hk hs he.options) h, ?_⟩
  refine List.forall_mem_cons.2 ⟨fun e he hn s s' t hs h => draws_big hs (vectorsOf_big hk hs he.options) h, ?_⟩
  exact List.forall_mem_nil _

theorem reads_big {u : List (String × Step φ)} (hu : ∀ q ∈ u, StepBig k P q) {cmds : List Expr}
    (hc : ∀ e ∈ cmds, PlainCommand P e) {s s' : PlotState φ} (h : Reads u cmds s s') :
    ∀ t : PlotState φ, State k s t → ∃ t', Reads u cmds t t' ∧ State k s' t' := by
  induction h with
  | nil s => exact fun t hs => ⟨t, .nil _, hs⟩
  | @step e es s s₁ s' n f h1 h2 h3 h4 _ ih =>
    intro t hs
    obtain ⟨t₁, h6, hs₁⟩ := hu _ h2 e (hc e (.head _)) h3 s s₁ t hs h4
    obtain ⟨t', h7, hs'⟩ := ih (fun x hx => hc x (.tail _ hx)) t₁ hs₁
    exact ⟨t', .step n f h1 h2 h3 h6 h7, hs'⟩
  | skip h1 h2 _ ih =>
    intro t hs
    obtain ⟨t', h7, hs'⟩ := ih (fun x hx => hc x (.tail _ hx)) t hs
    exact ⟨t', .skip h1 h2 h7, hs'⟩

theorem plot_big (hk : 0 < k) (hT : ScalableFonts P.text k) {cmds : List Expr} (hc : ∀ e ∈ cmds, PlainCommand P e)
    {L L' M : Layer φ} (hp : Page k L M) (h : PlotOf P cmds L L') : ∃ M', PlotOf P cmds M M' ∧ Page k L' M' := by
  obtain ⟨s, s', h1, h2, rfl⟩ := h
  have h0 : State k (blank L) (blank M) := ⟨hp, rfl, by simp [blank], rfl⟩
  obtain ⟨t, h3, hs⟩ := reads_big (first_big hk) hc h1 _ h0
  obtain ⟨t', h4, hs'⟩ := reads_big (second_big hk hT) hc h2 _ hs
  exact ⟨t'.layer, ⟨t, t', h3, h4, rfl⟩, hs'.page⟩

end
end Clip.Enlarge
