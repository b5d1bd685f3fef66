import Verif.Lemmas.Sources
set_option linter.unusedSimpArgs false
/-! # Elements with other notations of the values of their options -/
namespace Clip.Notation
open Settings Drawing DataSpec Options Whole
variable {φ : Type} {P : PlotEnv φ} {s : PlotState φ} {cs cs' : List Expr}

theorem colors_same {E : ReadEnv} (hc : List.Forall₂ (SameOption P E) cs cs') {a b : SeriesData} (h : ColorsMeans P E cs a b) :
    ColorsMeans P E cs' a b := ⟨acts_same h.colors hc (by kepts), last_same h.colorMap hc (by kepts)⟩

theorem sizes_same {E : ReadEnv} (hc : List.Forall₂ (SameOption P E) cs cs') {a b : SeriesData} (h : SizesMeans P E cs a b) :
    SizesMeans P E cs' a b := ⟨acts_same h.sizes hc (by kepts), last_same h.sizeMap hc (by kepts)⟩

theorem lines_takes : ∀ p ∈ linesTakes P (s.env P), Takes' P (s.env P) p := by
  unfold linesTakes
  refine List.forall_mem_append.2 ⟨List.forall_mem_append.2 ⟨takes_data, takes_scales⟩, ?_⟩
  taken

theorem lines_means (hc : List.Forall₂ (SameOption P (s.env P)) cs cs') {a b : LinesConf φ} (h : LinesMeans P (s.env P) cs a b) :
    ∃ r, RefsLike P b.refs r ∧ LinesMeans P (s.env P) cs' a { b with refs := r } := by
  obtain ⟨r, h1, h2⟩ := data_same hc h.data
  exact ⟨r, h2, known_same h.known hc,
    h1,
    scales_same hc h.scales,
    acts_same h.stroke hc (by kepts),
    last_same h.markerSize hc (by kepts),
    last_same h.markerShape hc (by kepts),
    last_same h.markerColor hc (by kepts),
    acts_same h.labels hc (by kepts),
    h.labelFonts,
    last_same h.labelFontSize hc (by kepts),
    last_same h.labelColor hc (by kepts),
    last_same h.labelPadding hc (by kepts),
    h.loaded⟩

theorem lines_settled (hc : List.Forall₂ (SameOption P (s.env P)) cs cs') {c : LinesConf φ} (h : SettledLines P s cs c) :
    ∃ r, SettledLines P s cs' { c with refs := r } := by
  obtain ⟨ha, o, hm, hl⟩ := h
  obtain ⟨r, h1, h2⟩ := lines_means hc hm
  obtain ⟨x, y, g, u, h3, h4, h5, rfl⟩ := hl
  exact ⟨r, accepted_same ha hc lines_takes, _, h2, x, y, g, u, (lines_same h1 _ _ _).trans h3, h4, h5, rfl⟩

theorem points_takes : ∀ p ∈ pointsTakes P (s.env P), Takes' P (s.env P) p := by
  unfold pointsTakes
  refine List.forall_mem_append.2 ⟨List.forall_mem_append.2 ⟨List.forall_mem_append.2 ⟨takes_data, takes_scales⟩, (List.forall_mem_append.2 ⟨takes_colors, takes_sizes⟩)⟩, ?_⟩
  taken

theorem points_means (hc : List.Forall₂ (SameOption P (s.env P)) cs cs') {a b : PointsConf φ} (h : PointsMeans P (s.env P) cs a b) :
    ∃ r, RefsLike P b.refs r ∧ PointsMeans P (s.env P) cs' a { b with refs := r } := by
  obtain ⟨r, h1, h2⟩ := data_same hc h.data
  exact ⟨r, h2, known_same h.known hc,
    h1,
    scales_same hc h.scales,
    colors_same hc h.colors,
    sizes_same hc h.sizes,
    last_same h.shape hc (by kepts),
    last_same h.shapes hc (by kepts),
    last_same h.size hc (by kepts),
    last_same h.color hc (by kepts),
    acts_same h.labels hc (by kepts),
    acts_same h.labelFonts hc (by kepts),
    last_same h.labelFontSize hc (by kepts),
    last_same h.labelColor hc (by kepts),
    last_same h.labelPadding hc (by kepts),
    h.loaded⟩

theorem points_settled (hc : List.Forall₂ (SameOption P (s.env P)) cs cs') {c : PointsConf φ} (h : SettledPoints P s cs c) :
    ∃ r, SettledPoints P s cs' { c with refs := r } := by
  obtain ⟨ha, o, hm, hl⟩ := h
  obtain ⟨r, h1, h2⟩ := points_means hc hm
  obtain ⟨x, y, colors, sizes, ⟨u, h3, h3'⟩, h4, h5, rfl⟩ := hl
  exact ⟨r, accepted_same ha hc points_takes, _, h2, x, y, colors, sizes, ⟨u, (points_same h1 _ _).trans h3, h3'⟩, h4, h5, rfl⟩

theorem bars_takes : ∀ p ∈ barsTakes P (s.env P), Takes' P (s.env P) p := by
  unfold barsTakes
  refine List.forall_mem_append.2 ⟨takes_scales, ?_⟩
  taken

theorem bars_means (hc : List.Forall₂ (SameOption P (s.env P)) cs cs') {a b : BarsConf φ} (h : BarsMeans P (s.env P) cs a b) :
    BarsMeans P (s.env P) cs' a b := ⟨known_same h.known hc,
    scales_same hc h.scales,
    acts_same h.x hc (by kepts),
    acts_same h.y hc (by kepts),
    acts_same h.xoffset hc (by kepts),
    acts_same h.yoffset hc (by kepts),
    last_same h.size hc (by kepts),
    acts_same h.sizes hc (by kepts),
    last_same h.offset hc (by kepts),
    acts_same h.offsets hc (by kepts),
    acts_same h.stroke hc (by kepts),
    acts_same h.fill hc (by kepts),
    last_same h.direction hc (by kepts),
    acts_same h.labels hc (by kepts),
    h.labelFonts,
    last_same h.labelFontSize hc (by kepts),
    last_same h.labelColor hc (by kepts),
    last_same h.labelPadding hc (by kepts)⟩

theorem bars_settled (hc : List.Forall₂ (SameOption P (s.env P)) cs cs') {c : BarsConf φ} (h : SettledBars P s cs c) :
    SettledBars P s cs' c := by
  obtain ⟨ha, o, hm, hl⟩ := h
  exact ⟨accepted_same ha hc bars_takes, o, bars_means hc hm, hl⟩

theorem areas_takes : ∀ p ∈ areasTakes P (s.env P), Takes' P (s.env P) p := by
  unfold areasTakes
  refine List.forall_mem_append.2 ⟨List.forall_mem_append.2 ⟨takes_data, takes_scales⟩, ?_⟩
  taken

theorem areas_means (hc : List.Forall₂ (SameOption P (s.env P)) cs cs') {a b : AreasConf} (h : AreasMeans P (s.env P) cs a b) :
    ∃ r, RefsLike P b.refs r ∧ AreasMeans P (s.env P) cs' a { b with refs := r } := by
  obtain ⟨r, h1, h2⟩ := data_same hc h.data
  exact ⟨r, h2, known_same h.known hc,
    h1,
    scales_same hc h.scales,
    acts_same h.x hc (by kepts),
    acts_same h.y hc (by kepts),
    acts_same h.xoffset hc (by kepts),
    acts_same h.yoffset hc (by kepts),
    acts_same h.strokeHigh hc (by kepts),
    acts_same h.strokeLow hc (by kepts),
    acts_same h.fill hc (by kepts),
    last_same h.direction hc (by kepts)⟩

theorem areas_settled (hc : List.Forall₂ (SameOption P (s.env P)) cs cs') {c : AreasConf} (h : SettledAreas P s cs c) :
    ∃ r, SettledAreas P s cs' { c with refs := r } := by
  obtain ⟨ha, o, hm, hl⟩ := h
  obtain ⟨r, h1, h2⟩ := areas_means hc hm
  obtain ⟨x, y, u, h3, h4, rfl⟩ := hl
  exact ⟨r, accepted_same ha hc areas_takes, _, h2, x, y, u, (points_same h1 _ _).trans h3, h4, rfl⟩

theorem errorbars_takes : ∀ p ∈ errorbarsTakes P (s.env P), Takes' P (s.env P) p := by
  unfold errorbarsTakes
  refine List.forall_mem_append.2 ⟨List.forall_mem_append.2 ⟨takes_scales, takes_colors⟩, ?_⟩
  taken

theorem errorbars_means (hc : List.Forall₂ (SameOption P (s.env P)) cs cs') {a b : ErrorbarsConf} (h : ErrorbarsMeans P (s.env P) cs a b) :
    ErrorbarsMeans P (s.env P) cs' a b := ⟨known_same h.known hc,
    scales_same hc h.scales,
    colors_same hc h.colors,
    acts_same h.x hc (by kepts),
    acts_same h.y hc (by kepts),
    acts_same h.xLow hc (by kepts),
    acts_same h.xHigh hc (by kepts),
    acts_same h.yLow hc (by kepts),
    acts_same h.yHigh hc (by kepts),
    last_same h.barWidth hc (by kepts),
    last_same h.color hc (by kepts),
    last_same h.strokeWidth hc (by kepts),
    h.loaded⟩

theorem errorbars_settled (hc : List.Forall₂ (SameOption P (s.env P)) cs cs') {c : ErrorbarsConf} (h : SettledErrorbars P s cs c) :
    SettledErrorbars P s cs' c := by
  obtain ⟨ha, o, hm, hl⟩ := h
  exact ⟨accepted_same ha hc errorbars_takes, o, errorbars_means hc hm, hl⟩

theorem rectangles_takes : ∀ p ∈ rectanglesTakes P (s.env P), Takes' P (s.env P) p := by
  unfold rectanglesTakes
  refine List.forall_mem_append.2 ⟨List.forall_mem_append.2 ⟨List.forall_mem_append.2 ⟨takes_data, takes_scales⟩, takes_colors⟩, ?_⟩
  taken

theorem rectangles_means (hc : List.Forall₂ (SameOption P (s.env P)) cs cs') {a b : RectanglesConf} (h : RectanglesMeans P (s.env P) cs a b) :
    ∃ r, RefsLike P b.refs r ∧ RectanglesMeans P (s.env P) cs' a { b with refs := r } := by
  obtain ⟨r, h1, h2⟩ := data_same hc h.data
  exact ⟨r, h2, known_same h.known hc,
    h1,
    scales_same hc h.scales,
    colors_same hc h.colors,
    acts_same h.sizeX hc (by kepts),
    acts_same h.sizeY hc (by kepts),
    last_same h.sizeXDefault hc (by kepts),
    last_same h.sizeYDefault hc (by kepts),
    last_same h.color hc (by kepts),
    h.loaded⟩

theorem rectangles_settled (hc : List.Forall₂ (SameOption P (s.env P)) cs cs') {c : RectanglesConf} (h : SettledRectangles P s cs c) :
    ∃ r, SettledRectangles P s cs' { c with refs := r } := by
  obtain ⟨ha, o, hm, hl⟩ := h
  obtain ⟨r, h1, h2⟩ := rectangles_means hc hm
  obtain ⟨x, y, colors, ⟨u, h3, h3'⟩, h4, rfl⟩ := hl
  exact ⟨r, accepted_same ha hc rectangles_takes, _, h2, x, y, colors, ⟨u, (points_same h1 _ _).trans h3, h3'⟩, h4, rfl⟩

theorem vectors_takes : ∀ p ∈ vectorsTakes P (s.env P), Takes' P (s.env P) p := by
  unfold vectorsTakes
  refine List.forall_mem_append.2 ⟨List.forall_mem_append.2 ⟨List.forall_mem_append.2 ⟨takes_data, takes_scales⟩, (List.forall_mem_append.2 ⟨takes_colors, takes_sizes⟩)⟩, ?_⟩
  taken

theorem vectors_means (hc : List.Forall₂ (SameOption P (s.env P)) cs cs') {a b : VectorsConf} (h : VectorsMeans P (s.env P) cs a b) :
    ∃ r, RefsLike P b.refs r ∧ VectorsMeans P (s.env P) cs' a { b with refs := r } := by
  obtain ⟨r, h1, h2⟩ := data_same hc h.data
  exact ⟨r, h2, known_same h.known hc,
    h1,
    scales_same hc h.scales,
    colors_same hc h.colors,
    sizes_same hc h.sizes,
    acts_same h.dx hc (by kepts),
    acts_same h.dy hc (by kepts),
    last_same h.color hc (by kepts),
    last_same h.size hc (by kepts),
    h.loaded⟩

theorem vectors_settled (hc : List.Forall₂ (SameOption P (s.env P)) cs cs') {c : VectorsConf} (h : SettledVectors P s cs c) :
    ∃ r, SettledVectors P s cs' { c with refs := r } := by
  obtain ⟨ha, o, hm, hl⟩ := h
  obtain ⟨r, h1, h2⟩ := vectors_means hc hm
  obtain ⟨x, y, colors, sizes, ⟨u, h3, h3'⟩, h4, h5, rfl⟩ := hl
  exact ⟨r, accepted_same ha hc vectors_takes, _, h2, x, y, colors, sizes, ⟨u, (points_same h1 _ _).trans h3, h3'⟩, h4, h5, rfl⟩

theorem labels_takes : ∀ p ∈ labelsTakes P (s.env P), Takes' P (s.env P) p := by
  unfold labelsTakes
  refine List.forall_mem_append.2 ⟨List.forall_mem_append.2 ⟨takes_data, takes_scales⟩, ?_⟩
  taken

theorem labels_means (hc : List.Forall₂ (SameOption P (s.env P)) cs cs') {a b : LabelsConf φ} (h : LabelsMeans P (s.env P) cs a b) :
    ∃ r, RefsLike P b.refs r ∧ LabelsMeans P (s.env P) cs' a { b with refs := r } := by
  obtain ⟨r, h1, h2⟩ := data_same hc h.data
  exact ⟨r, h2, known_same h.known hc,
    h1,
    scales_same hc h.scales,
    acts_same h.labels hc (by kepts),
    acts_same h.labelFonts hc (by kepts),
    last_same h.labelFontSize hc (by kepts),
    last_same h.labelColor hc (by kepts),
    last_same h.labelPadding hc (by kepts),
    h.loaded⟩

theorem labels_settled (hc : List.Forall₂ (SameOption P (s.env P)) cs cs') {c : LabelsConf φ} (h : SettledLabels P s cs c) :
    ∃ r, SettledLabels P s cs' { c with refs := r } := by
  obtain ⟨ha, o, hm, hl⟩ := h
  obtain ⟨r, h1, h2⟩ := labels_means hc hm
  obtain ⟨x, y, ⟨u, h3, h3'⟩, rfl⟩ := hl
  exact ⟨r, accepted_same ha hc labels_takes, _, h2, x, y, ⟨u, (points_same h1 _ _).trans h3, h3'⟩, rfl⟩

theorem polygons_takes : ∀ p ∈ polygonsTakes P (s.env P), Takes' P (s.env P) p := by
  unfold polygonsTakes
  refine List.forall_mem_append.2 ⟨takes_limits, ?_⟩
  taken

theorem polygons_means (hc : List.Forall₂ (SameOption P (s.env P)) cs cs') {a b : PolygonsConf} (h : PolygonsMeans P (s.env P) cs a b) :
    PolygonsMeans P (s.env P) cs' a b := ⟨known_same h.known hc,
    acts_same h.x hc (by kepts),
    acts_same h.y hc (by kepts),
    acts_same h.polys hc (by kepts),
    acts_same h.fill hc (by kepts),
    acts_same h.stroke hc (by kepts)⟩

theorem polygons_settled (hc : List.Forall₂ (SameOption P (s.env P)) cs cs') {c : PolygonsConf} (h : SettledPolygons P s cs c) :
    SettledPolygons P s cs' c := by
  obtain ⟨ha, o, hm, hl⟩ := h
  exact ⟨accepted_same ha hc polygons_takes, o, polygons_means hc hm, hl⟩

theorem grid_takes : ∀ p ∈ gridTakes P (s.env P), Takes' P (s.env P) p := by
  unfold gridTakes
  refine List.forall_mem_append.2 ⟨takes_scales, ?_⟩
  taken

theorem grid_means (hc : List.Forall₂ (SameOption P (s.env P)) cs cs') {a b : GridConf} (h : GridMeans P (s.env P) cs a b) :
    GridMeans P (s.env P) cs' a b := ⟨known_same h.known hc,
    scales_same hc h.scales,
    last_same h.layoutX hc (by kepts),
    last_same h.layoutY hc (by kepts),
    acts_same h.stroke hc (by kepts)⟩

theorem grid_settled (hc : List.Forall₂ (SameOption P (s.env P)) cs cs') {c : GridConf} (h : SettledGrid P s cs c) :
    SettledGrid P s cs' c := by
  obtain ⟨ha, o, hm, hl⟩ := h
  exact ⟨accepted_same ha hc grid_takes, o, grid_means hc hm, hl⟩

theorem background_takes : ∀ p ∈ backgroundTakes (s.env P), Takes' P (s.env P) p := by
  unfold backgroundTakes
  taken

theorem background_means (hc : List.Forall₂ (SameOption P (s.env P)) cs cs') {a b : BackgroundConf} (h : BackgroundMeans (s.env P) cs a b) :
    BackgroundMeans (s.env P) cs' a b := ⟨known_same h.known hc,
    acts_same h.fill hc (by kepts),
    acts_same h.stroke hc (by kepts)⟩

theorem background_settled (hc : List.Forall₂ (SameOption P (s.env P)) cs cs') {c : BackgroundConf} (h : SettledBackground P s cs c) :
    SettledBackground P s cs' c := by
  obtain ⟨ha, o, hm, hl⟩ := h
  exact ⟨accepted_same ha hc background_takes, o, background_means hc hm, hl⟩

theorem axis_takes : ∀ p ∈ ("align", Has (IsOneOf alignWords)) :: axisTakes P (s.env P), Takes' P (s.env P) p := by
  unfold axisTakes
  taken

theorem axis_means (hc : List.Forall₂ (SameOption P (s.env P)) cs cs') {a b : AxisDef φ} (h : AxisMeans P (s.env P) cs a b) :
    AxisMeans P (s.env P) cs' a b := ⟨acts_same h.scale hc (by kepts), last_same h.title hc (by kepts), last_same h.titleColor hc (by kepts),
    last_same h.titleOffset hc (by kepts), last_same h.titlePadding hc (by kepts), acts_same h.titleFonts hc (by kepts),
    last_same h.titleFontSize hc (by kepts), last_same h.titleRotate hc (by kepts), last_same h.tickOffset hc (by kepts),
    last_same h.tickLength hc (by kepts), last_same h.tickPlacement hc (by kepts), last_same h.labelPlacement hc (by kepts),
    last_same h.labelFormat hc (by kepts), last_same h.labelAttach hc (by kepts), last_same h.labelOffset hc (by kepts),
    last_same h.labelPadding hc (by kepts), last_same h.labelRotate hc (by kepts), acts_same h.labelFonts hc (by kepts),
    last_same h.labelFontSize hc (by kepts), last_same h.labelColor hc (by kepts), acts_same h.border hc (by kepts), h.align⟩

theorem named_command {c : Expr} {n : Str} (hn : nameOf c = some n) : Commands.isCommand c = true := by
  unfold nameOf at hn
  split at hn
  · rfl
  · rfl
  · cases hn

theorem option_command {c c' : Expr} (h : SameOption P E c c') (hi : Commands.isCommand c = true) : Commands.isCommand c' = true := by
  have key : ∀ {n}, nameOf c' = some n → Commands.isCommand c' = true := named_command
  cases h with
  | same => exact hi
  | source _ _ h => exact key h
  | given _ _ h => exact key h
  | color _ _ h => exact key h
  | size _ _ h => exact key h

theorem left_of {R : Expr → Expr → Prop} {as bs : List Expr} (h : List.Forall₂ R as bs) {b : Expr} (hb : b ∈ bs) : ∃ a ∈ as, R a b := by
  induction h with
  | nil => simp at hb
  | cons h _ ih =>
    rcases List.mem_cons.1 hb with rfl | hb
    · exact ⟨_, .head _, h⟩
    · obtain ⟨a, ha, hr⟩ := ih hb
      exact ⟨a, .tail _ ha, hr⟩

theorem axis_settled (hc : List.Forall₂ (SameOption P (s.env P)) cs cs') {a : AxisDef φ} (h : SettledAxis P s cs a) :
    SettledAxis P s cs' a := by
  obtain ⟨h1, h2, h3, al, h4, h5⟩ := h
  refine ⟨fun he => ?_, fun c hm => ?_, fun c hm n A hA hn => ?_, al, last_same h4 hc (by kepts), axis_means hc h5⟩
  · subst he; cases hc; exact h1 rfl
  · obtain ⟨c₀, h0, hs⟩ := left_of hc hm
    exact option_command hs (h2 c₀ h0)
  · obtain ⟨c₀, h0, hs⟩ := left_of hc hm
    have hn₀ := (option_name hs).symm.trans hn
    exact axis_takes _ hA c₀ c hs hn₀ (h3 c₀ h0 n A hA hn₀)

end Clip.Notation
