import Verif.Lemmas.ReorderParts
set_option linter.unusedSimpArgs false
set_option linter.unusedTactic false
/-!
# C114: the options of an element in another order
-/
namespace Clip.Reorder
open Commands Settings Pictures Drawing Options
variable {φ : Type} {P : PlotEnv φ} {E : ReadEnv}

macro "fn" : tactic => `(tactic| first
  | exact fun_text | exact fun_size | exact fun_number | exact fun_measure | exact fun_color | exact fun_head | exact fun_texts
  | exact fun_data | exact fun_lengths | exact fun_font | exact fun_polys | exact fun_placement | exact fun_fillColor
  | exact fun_fillStyle (by assumption) | exact fun_some | exact fun_reader | exact fun_oneOf (by simp))

macro "fns" : tactic => `(tactic| first
  | exact funs_last (by fn)
  | (repeat (refine funs_cons (by fn) (by simp) ?_)
     exact funs_nil))

/-- The options act on the setting in the same order. -/
macro "same" h:term:max h':term:max g:term:max : tactic => `(tactic|
  exact acts_same (g := $g) (by fns) (by simp) ($(Lean.mkIdent `hs) $g (by decide)) $h $h')

/-- The effect of one option, by its own reader. -/
macro "raw_leaf" : tactic => `(tactic| first
  | exact eff_strokeColor (by assumption) | exact eff_strokeWidth | exact fun _ _ _ h => h)

macro "raw_effect" : tactic => `(tactic| first
  | exact effect_part id (fun _ _ => rfl) (fun _ => rfl) (by raw_leaf)
  | exact effect_here (effect_part id (fun _ _ => rfl) (fun _ => rfl) (by raw_leaf)) (by keeps)
  | exact effect_there (by keeps) (effect_here (effect_part id (fun _ _ => rfl) (fun _ => rfl) (by raw_leaf)) (by keeps))
  | exact effect_there (by keeps) (effect_there (by keeps)
      (effect_here (effect_part id (fun _ _ => rfl) (fun _ => rfl) (by raw_leaf)) (by keeps))))

macro "raw" : tactic => `(tactic|
  repeat' (first
    | exact covers_nil
    | refine covers_append ?_ ?_
    | refine covers_skip (by simp) (by keeps) ?_
    | refine covers_act _ (by member) (by raw_effect) ?_
    | exact covers_out (fun _ _ => rfl) (by simp [dataOpts, scaleOpts, limitOpts, colorOpts, sizeOpts])))

theorem no_sizes' : Covers (colorOpts P E) (·.sizes) [] := by unfold colorOpts; raw
theorem no_sizeMap : Covers (colorOpts P E) (·.sizeMap) [] := by unfold colorOpts; raw

macro "no_sizes" : tactic => `(tactic|
  repeat' (first
    | exact covers_nil
    | refine covers_append ?_ ?_
    | exact covers_in _ (fun _ _ => rfl) (fun _ => rfl) no_sizes'
    | exact covers_in _ (fun _ _ => rfl) (fun _ => rfl) no_sizeMap
    | refine covers_skip (by simp) (by keeps) ?_
    | exact covers_out (fun _ _ => rfl) (by simp)))

/-- The options for a stroke. -/
def strokeTable (E : ReadEnv) : List (String × Effect StrokeState) := [("color", Options.strokeColor E), ("stroke-color", Options.strokeColor E),
  ("stroke-width", Options.strokeWidth E), ("stroke-style", ran (readStrokeStyle E))]

theorem stroke_order {cs cs' : List Expr} (h1 : cs.filter (named ["color", "stroke-color"]) = cs'.filter (named ["color", "stroke-color"]))
    (h2 : cs.filter (named ["stroke-width", "stroke-style"]) = cs'.filter (named ["stroke-width", "stroke-style"]))
    {a b b' : StrokeState} (h : Acts (strokeTable E) cs a b) (h' : Acts (strokeTable E) cs' a b') : b = b' := by
  refine stroke_same (E := E) (by simp [strokeTable]) ?_ h1 h2 h h'
  intro p hp
  simp only [strokeTable, List.mem_cons, List.not_mem_nil, or_false] at hp
  rcases hp with rfl | rfl | rfl | rfl
  · exact .inl (by simp)
  · exact .inl (by simp)
  · exact .inr ⟨by simp, by simp, plain_width⟩
  · exact .inr ⟨by simp, by simp, plain_style⟩

theorem scaleX_order {cs cs' : List Expr} (hs : ∀ g ∈ scaleGroups, cs.filter (named g) = cs'.filter (named g)) {a b b' : Scale}
    (h : Acts (scaleX P E) cs a b) (h' : Acts (scaleX P E) cs' a b') : b = b' := by
  refine scale_same (P := P) (E := E) ⟨by simp [scaleX], ?_⟩ (hs ["limit-x", "limit-x-min"] (by decide)) (hs ["limit-x", "limit-x-max"] (by decide))
    (hs ["scale-x", "scale-x-padding"] (by decide)) h h'
  intro p hp
  simp only [scaleX, List.mem_cons, List.not_mem_nil, or_false] at hp
  rcases hp with rfl | rfl | rfl | rfl | rfl <;> simp

theorem scaleY_order {cs cs' : List Expr} (hs : ∀ g ∈ scaleGroups, cs.filter (named g) = cs'.filter (named g)) {a b b' : Scale}
    (h : Acts (scaleY P E) cs a b) (h' : Acts (scaleY P E) cs' a b') : b = b' := by
  refine scale_same (P := P) (E := E) ⟨by simp [scaleY], ?_⟩ (hs ["limit-y", "limit-y-min"] (by decide)) (hs ["limit-y", "limit-y-max"] (by decide))
    (hs ["scale-y", "scale-y-padding"] (by decide)) h h'
  intro p hp
  simp only [scaleY, List.mem_cons, List.not_mem_nil, or_false] at hp
  rcases hp with rfl | rfl | rfl | rfl | rfl <;> simp

theorem scales_order {cs cs' : List Expr} (hs : ∀ g ∈ scaleGroups, cs.filter (named g) = cs'.filter (named g)) {a b b' : Scales}
    (h : ScalesMeans P E cs a b) (h' : ScalesMeans P E cs' a b') : b = b' := by
  have hx := scaleX_order hs h.x h'.x
  have hy := scaleY_order hs h.y h'.y
  cases b; cases b'
  simp only [Scales.mk.injEq]
  exact ⟨hx, hy⟩

theorem refs_order {cs cs' : List Expr} (hs : ∀ g ∈ fileGroups, cs.filter (named g) = cs'.filter (named g)) {a b b' : DataRefs}
    (h : DataMeans cs a b) (h' : DataMeans cs' a b') : b = b' := by
  have h1 : b.path = b'.path := by same h.path h'.path ["data"]
  have h2 : b.format = b'.format := by same h.format h'.format ["data-format"]
  have h3 : b.refX = b'.refX := by same h.x h'.x ["data-x"]
  have h4 : b.refY = b'.refY := by same h.y h'.y ["data-y"]
  cases b; cases b'
  simp only [DataRefs.mk.injEq]
  exact ⟨h1, h2, h3, h4⟩

/-- All or nothing. -/
theorem order_of {σ : Type} {fns : HandlerMap σ Fail} {takes : Takes} {a : σ} {cs cs' : List Expr}
    (acc : ∀ cs, (∃ b, Executed fns cs a b) ↔ Acceptable takes cs) (hc : cs.Perm cs')
    (uniq : ∀ b b', Executed fns cs a b → Executed fns cs' a b' → b = b') :
    (∃ b, walkRead fns cs a = (b, none) ∧ walkRead fns cs' a = (b, none)) ∨
    ((∃ b f, walkRead fns cs a = (b, some f)) ∧ ∃ b f, walkRead fns cs' a = (b, some f)) := by
  by_cases h : ∃ b, Executed fns cs a b
  · have h' : ∃ b, Executed fns cs' a b := (acc cs').2 fun c hm => (acc cs).1 h c (hc.mem_iff.2 hm)
    obtain ⟨b, h⟩ := h
    obtain ⟨b', h'⟩ := h'
    have := uniq b b' h h'
    subst this
    exact .inl ⟨b, (walkRead_ok _ _ _ _).2 h, (walkRead_ok _ _ _ _).2 h'⟩
  · have h' : ¬ ∃ b, Executed fns cs' a b := fun h' => h ((acc cs).2 fun c hm => (acc cs').1 h' c (hc.mem_iff.1 hm))
    refine .inr ⟨?_, ?_⟩
    · cases hr : walkRead fns cs a with
      | mk b o => cases o with
        | none => exact absurd ⟨b, (walkRead_ok _ _ _ _).1 hr⟩ h
        | some f => exact ⟨b, f, rfl⟩
    · cases hr : walkRead fns cs' a with
      | mk b o => cases o with
        | none => exact absurd ⟨b, (walkRead_ok _ _ _ _).1 hr⟩ h'
        | some f => exact ⟨b, f, rfl⟩

/-- The two configurations are the same, or both are refused. -/
def Alike {α : Type} (x y : Except Fail α) : Prop := (∃ c, x = .ok c ∧ y = .ok c) ∨ ((∃ f, x = .error f) ∧ ∃ f, y = .error f)

theorem alike_refl {α : Type} (x : Except Fail α) : Alike x x := by
  cases x with
  | ok c => exact .inl ⟨c, rfl, rfl⟩
  | error f => exact .inr ⟨⟨f, rfl⟩, f, rfl⟩

theorem polyX_order {cs cs' : List Expr} (hs : ∀ g ∈ limitGroups ++ [["scale-x"], ["scale-y"]], cs.filter (named g) = cs'.filter (named g))
    {a b b' : Scale} (h : Acts [("limit-x", scaleLimits E), ("limit-x-min", scaleMinimum E), ("limit-x-max", scaleMaximum E),
      ("scale-x", ScaleWords P)] cs a b) (h' : Acts [("limit-x", scaleLimits E), ("limit-x-min", scaleMinimum E),
      ("limit-x-max", scaleMaximum E), ("scale-x", ScaleWords P)] cs' a b') : b = b' := by
  refine scale_same (P := P) (E := E) ⟨by simp, ?_⟩ (hs ["limit-x", "limit-x-min"] (by decide)) (hs ["limit-x", "limit-x-max"] (by decide))
    (hs ["scale-x"] (by decide)) h h'
  intro p hp
  simp only [List.mem_cons, List.not_mem_nil, or_false] at hp
  rcases hp with rfl | rfl | rfl | rfl <;> simp

theorem polyY_order {cs cs' : List Expr} (hs : ∀ g ∈ limitGroups ++ [["scale-x"], ["scale-y"]], cs.filter (named g) = cs'.filter (named g))
    {a b b' : Scale} (h : Acts [("limit-y", scaleLimits E), ("limit-y-min", scaleMinimum E), ("limit-y-max", scaleMaximum E),
      ("scale-y", ScaleWords P)] cs a b) (h' : Acts [("limit-y", scaleLimits E), ("limit-y-min", scaleMinimum E),
      ("limit-y-max", scaleMaximum E), ("scale-y", ScaleWords P)] cs' a b') : b = b' := by
  refine scale_same (P := P) (E := E) ⟨by simp, ?_⟩ (hs ["limit-y", "limit-y-min"] (by decide)) (hs ["limit-y", "limit-y-max"] (by decide))
    (hs ["scale-y"] (by decide)) h h'
  intro p hp
  simp only [List.mem_cons, List.not_mem_nil, or_false] at hp
  rcases hp with rfl | rfl | rfl | rfl <;> simp

/-- The options for a stroke of `areas`. -/
def areaHighTable (E : ReadEnv) : List (String × Effect StrokeState) := [("color", Options.strokeColor E), ("stroke-color", Options.strokeColor E),
  ("stroke-width", Options.strokeWidth E), ("stroke-style", ran (readStrokeStyle E)), ("stroke-high-color", Options.strokeColor E),
  ("stroke-high-width", Options.strokeWidth E), ("stroke-high-style", ran (readStrokeStyle E))]

theorem area_order {cs cs' : List Expr} (hs : ∀ g ∈ [["color", "stroke-color", "stroke-high-color"],
      ["stroke-width", "stroke-style", "stroke-high-width", "stroke-high-style"]], cs.filter (named g) = cs'.filter (named g))
    {a b b' : StrokeState} (h : Acts (areaHighTable E) cs a b) (h' : Acts (areaHighTable E) cs' a b') : b = b' := by
  refine stroke_same (E := E) (by simp [areaHighTable]) ?_ (hs _ (.head _)) (hs _ (.tail _ (.head _))) h h'
  intro p hp
  simp only [areaHighTable, List.mem_cons, List.not_mem_nil, or_false] at hp
  rcases hp with rfl | rfl | rfl | rfl | rfl | rfl | rfl
  · exact .inl (by simp)
  · exact .inl (by simp)
  · exact .inr ⟨by simp, by simp, plain_width⟩
  · exact .inr ⟨by simp, by simp, plain_style⟩
  · exact .inl (by simp)
  · exact .inr ⟨by simp, by simp, plain_width⟩
  · exact .inr ⟨by simp, by simp, plain_style⟩

set_option maxHeartbeats 4000000 in
theorem areas_high (hp : E.palette ≠ []) {cmds : List Expr} {a b : AreasConf} (he : Executed (optTable (areasOpts P E)) cmds a b) :
    Acts (areaHighTable E) cmds a.strokeHigh b.strokeHigh := by
  refine acts_of_executed (get := (·.strokeHigh)) ?_ he
  unfold areasOpts areaHighTable
  show Covers _ _ _
  raw

/-- The options for a stroke of `areas`. -/
def areaLowTable (E : ReadEnv) : List (String × Effect StrokeState) := [("color", Options.strokeColor E), ("stroke-color", Options.strokeColor E),
  ("stroke-width", Options.strokeWidth E), ("stroke-style", ran (readStrokeStyle E)), ("stroke-low-color", Options.strokeColor E),
  ("stroke-low-width", Options.strokeWidth E), ("stroke-low-style", ran (readStrokeStyle E))]

theorem area_order' {cs cs' : List Expr} (hs : ∀ g ∈ [["color", "stroke-color", "stroke-low-color"],
      ["stroke-width", "stroke-style", "stroke-low-width", "stroke-low-style"]], cs.filter (named g) = cs'.filter (named g))
    {a b b' : StrokeState} (h : Acts (areaLowTable E) cs a b) (h' : Acts (areaLowTable E) cs' a b') : b = b' := by
  refine stroke_same (E := E) (by simp [areaLowTable]) ?_ (hs _ (.head _)) (hs _ (.tail _ (.head _))) h h'
  intro p hp
  simp only [areaLowTable, List.mem_cons, List.not_mem_nil, or_false] at hp
  rcases hp with rfl | rfl | rfl | rfl | rfl | rfl | rfl
  · exact .inl (by simp)
  · exact .inl (by simp)
  · exact .inr ⟨by simp, by simp, plain_width⟩
  · exact .inr ⟨by simp, by simp, plain_style⟩
  · exact .inl (by simp)
  · exact .inr ⟨by simp, by simp, plain_width⟩
  · exact .inr ⟨by simp, by simp, plain_style⟩

set_option maxHeartbeats 4000000 in
theorem areas_low (hp : E.palette ≠ []) {cmds : List Expr} {a b : AreasConf} (he : Executed (optTable (areasOpts P E)) cmds a b) :
    Acts (areaLowTable E) cmds a.strokeLow b.strokeLow := by
  refine acts_of_executed (get := (·.strokeLow)) ?_ he
  unfold areasOpts areaLowTable
  show Covers _ _ _
  raw

set_option maxHeartbeats 4000000 in
theorem lines_stroke (hp : E.palette ≠ []) {cmds : List Expr} {a b : LinesConf φ}
    (he : Executed (optTable (linesOpts P E)) cmds a b) : Acts (strokeTable E) cmds a.stroke b.stroke := by
  refine acts_of_executed (get := (·.stroke)) ?_ he
  unfold linesOpts strokeTable
  show Covers _ _ _
  raw

set_option maxHeartbeats 4000000 in
theorem bars_stroke (hp : E.palette ≠ []) {cmds : List Expr} {a b : BarsConf φ}
    (he : Executed (optTable (barsOpts P E)) cmds a b) : Acts (strokeTable E) cmds a.stroke b.stroke := by
  refine acts_of_executed (get := (·.stroke)) ?_ he
  unfold barsOpts strokeTable
  show Covers _ _ _
  raw

set_option maxHeartbeats 4000000 in
theorem polygons_stroke (hp : E.palette ≠ []) {cmds : List Expr} {a b : PolygonsConf}
    (he : Executed (optTable (polygonsOpts P E)) cmds a b) : Acts (strokeTable E) cmds a.stroke b.stroke := by
  refine acts_of_executed (get := (·.stroke)) ?_ he
  unfold polygonsOpts strokeTable
  show Covers _ _ _
  raw

set_option maxHeartbeats 4000000 in
theorem grid_stroke (hp : E.palette ≠ []) {cmds : List Expr} {a b : GridConf}
    (he : Executed (optTable (gridOpts P E)) cmds a b) : Acts (strokeTable E) cmds a.stroke b.stroke := by
  refine acts_of_executed (get := (·.stroke)) ?_ he
  unfold gridOpts strokeTable
  show Covers _ _ _
  raw

set_option maxHeartbeats 4000000 in
theorem background_stroke (hp : E.palette ≠ []) {cmds : List Expr} {a b : BackgroundConf}
    (he : Executed (optTable (backgroundOpts E)) cmds a b) : Acts (strokeTable E) cmds a.stroke b.stroke := by
  refine acts_of_executed (get := (·.stroke)) ?_ he
  unfold backgroundOpts strokeTable
  show Covers _ _ _
  raw

set_option maxHeartbeats 4000000 in
theorem errorbars_sizes {cmds : List Expr} {a b : ErrorbarsConf} (he : Executed (optTable (errorbarsOpts P E)) cmds a b) :
    b.series.sizes = a.series.sizes ∧ b.series.sizeMap = a.series.sizeMap := by
  constructor
  · refine kept_of_covers (get := (·.series.sizes)) ?_ he
    unfold errorbarsOpts; show Covers _ _ _; no_sizes
  · refine kept_of_covers (get := (·.series.sizeMap)) ?_ he
    unfold errorbarsOpts; show Covers _ _ _; no_sizes

set_option maxHeartbeats 4000000 in
theorem rectangles_sizes {cmds : List Expr} {a b : RectanglesConf} (he : Executed (optTable (rectanglesOpts P E)) cmds a b) :
    b.series.sizes = a.series.sizes ∧ b.series.sizeMap = a.series.sizeMap := by
  constructor
  · refine kept_of_covers (get := (·.series.sizes)) ?_ he
    unfold rectanglesOpts; show Covers _ _ _; no_sizes
  · refine kept_of_covers (get := (·.series.sizeMap)) ?_ he
    unfold rectanglesOpts; show Covers _ _ _; no_sizes

set_option maxHeartbeats 1000000 in
theorem lines_unique (hp : E.palette ≠ []) {cs cs' : List Expr} (hs : ∀ g ∈ linesGroups, cs.filter (named g) = cs'.filter (named g))
    {a b b' : LinesConf φ} (h : Executed (optTable (linesOpts P E)) cs a b) (h' : Executed (optTable (linesOpts P E)) cs' a b') : b = b' := by
  have m := lines_means hp h
  have m' := lines_means hp h'
  have e0 : b.refs = b'.refs := refs_order (fun g hg => hs g (by revert g; decide)) m.data m'.data
  have e1 : b.scales = b'.scales := scales_order (fun g hg => hs g (by revert g; decide)) m.scales m'.scales
  have e2 : b.stroke = b'.stroke := stroke_order (E := E) (hs ["color", "stroke-color"] (by decide)) (hs ["stroke-width", "stroke-style"] (by decide))
    (lines_stroke hp h) (lines_stroke hp h')
  have e3 : b.markerSize = b'.markerSize := by same m.markerSize m'.markerSize ["marker-size"]
  have e4 : b.markerShape = b'.markerShape := by same m.markerShape m'.markerShape ["marker-shape"]
  have e5 : b.markerColor = b'.markerColor := by same m.markerColor m'.markerColor ["color", "marker-color"]
  have e6 : b.labels = b'.labels := by same m.labels m'.labels ["labels"]
  have e7 : b.labelFonts = b'.labelFonts := m.labelFonts.trans m'.labelFonts.symm
  have e8 : b.labelFontSize = b'.labelFontSize := by same m.labelFontSize m'.labelFontSize ["label-font-size"]
  have e9 : b.labelColor = b'.labelColor := by same m.labelColor m'.labelColor ["label-color"]
  have e10 : b.labelPadding = b'.labelPadding := by same m.labelPadding m'.labelPadding ["label-padding"]
  have e11 : b.x = b'.x := m.loaded.1.trans m'.loaded.1.symm
  have e12 : b.y = b'.y := m.loaded.2.1.trans m'.loaded.2.1.symm
  have e13 : b.groups = b'.groups := m.loaded.2.2.trans m'.loaded.2.2.symm
  clear m m' h h'
  cases b; cases b'
  simp only [LinesConf.mk.injEq]
  simp only at e0 e1 e2 e3 e4 e5 e6 e7 e8 e9 e10 e11 e12 e13
  simp only [e0, e1, e2, e3, e4, e5, e6, e7, e8, e9, e10, e11, e12, e13, and_self]

/-- `lines` with its options in another order. -/
theorem lines_order (s : PlotState φ) (hp : (s.env P).palette ≠ []) {cs cs' : List Expr} (h : SameUpToOrder linesGroups cs cs') :
    Alike (linesConfigure P s cs) (linesConfigure P s cs') := by
  rcases order_of (fun cs => lines_accepts (P := P) hp cs (linesDefault s)) h.1 (fun _ _ => lines_unique (P := P) hp h.2) with ⟨b, h1, h2⟩ | ⟨⟨b, f, h1⟩, b', f', h2⟩
  · simp only [linesConfigure, h1, h2]; exact alike_refl _
  · simp only [linesConfigure, h1, h2]; exact .inr ⟨⟨_, rfl⟩, _, rfl⟩

set_option maxHeartbeats 1000000 in
theorem points_unique (hp : E.palette ≠ []) {cs cs' : List Expr} (hs : ∀ g ∈ pointsGroups, cs.filter (named g) = cs'.filter (named g))
    {a b b' : PointsConf φ} (h : Executed (optTable (pointsOpts P E)) cs a b) (h' : Executed (optTable (pointsOpts P E)) cs' a b') : b = b' := by
  have m := points_means hp h
  have m' := points_means hp h'
  have e0 : b.refs = b'.refs := refs_order (fun g hg => hs g (by revert g; decide)) m.data m'.data
  have e1 : b.scales = b'.scales := scales_order (fun g hg => hs g (by revert g; decide)) m.scales m'.scales
  have e2 : b.series.colors = b'.series.colors := by same m.colors.colors m'.colors.colors ["colors"]
  have e3 : b.series.colorMap = b'.series.colorMap := by same m.colors.colorMap m'.colors.colorMap ["color-map"]
  have e4 : b.series.sizes = b'.series.sizes := by same m.sizes.sizes m'.sizes.sizes ["sizes"]
  have e5 : b.series.sizeMap = b'.series.sizeMap := by same m.sizes.sizeMap m'.sizes.sizeMap ["size-map"]
  have e6 : b.shape = b'.shape := by same m.shape m'.shape ["shape"]
  have e7 : b.shapes = b'.shapes := by same m.shapes m'.shapes ["shapes"]
  have e8 : b.size = b'.size := by same m.size m'.size ["size"]
  have e9 : b.color = b'.color := by same m.color m'.color ["color"]
  have e10 : b.labels = b'.labels := by same m.labels m'.labels ["labels"]
  have e11 : b.labelFonts = b'.labelFonts := by same m.labelFonts m'.labelFonts ["label-font", "font"]
  have e12 : b.labelFontSize = b'.labelFontSize := by same m.labelFontSize m'.labelFontSize ["label-font-size"]
  have e13 : b.labelColor = b'.labelColor := by same m.labelColor m'.labelColor ["label-color"]
  have e14 : b.labelPadding = b'.labelPadding := by same m.labelPadding m'.labelPadding ["label-padding"]
  have e15 : b.x = b'.x := m.loaded.1.trans m'.loaded.1.symm
  have e16 : b.y = b'.y := m.loaded.2.1.trans m'.loaded.2.1.symm
  have e17 : b.colors = b'.colors := m.loaded.2.2.1.trans m'.loaded.2.2.1.symm
  have e18 : b.sizes = b'.sizes := m.loaded.2.2.2.trans m'.loaded.2.2.2.symm
  clear m m' h h'
  have es : b.series = b'.series := by
    revert e2 e3 e4 e5; cases b.series; cases b'.series; rintro rfl rfl rfl rfl; rfl
  cases b; cases b'
  simp only [PointsConf.mk.injEq]
  simp only at e0 e1 e6 e7 e8 e9 e10 e11 e12 e13 e14 e15 e16 e17 e18 es
  simp only [e0, e1, e6, e7, e8, e9, e10, e11, e12, e13, e14, e15, e16, e17, e18, es, and_self]

/-- `points` with its options in another order. -/
theorem points_order (s : PlotState φ) (hp : (s.env P).palette ≠ []) {cs cs' : List Expr} (h : SameUpToOrder pointsGroups cs cs') :
    Alike (pointsConfigure P s cs) (pointsConfigure P s cs') := by
  rcases order_of (fun cs => points_accepts (P := P) hp cs (pointsDefault s)) h.1 (fun _ _ => points_unique (P := P) hp h.2) with ⟨b, h1, h2⟩ | ⟨⟨b, f, h1⟩, b', f', h2⟩
  · simp only [pointsConfigure, h1, h2]; exact alike_refl _
  · simp only [pointsConfigure, h1, h2]; exact .inr ⟨⟨_, rfl⟩, _, rfl⟩

set_option maxHeartbeats 1000000 in
theorem bars_unique (hp : E.palette ≠ []) {cs cs' : List Expr} (hs : ∀ g ∈ barsGroups, cs.filter (named g) = cs'.filter (named g))
    {a b b' : BarsConf φ} (h : Executed (optTable (barsOpts P E)) cs a b) (h' : Executed (optTable (barsOpts P E)) cs' a b') : b = b' := by
  have m := bars_means hp h
  have m' := bars_means hp h'
  have e0 : b.scales = b'.scales := scales_order (fun g hg => hs g (by revert g; decide)) m.scales m'.scales
  have e1 : b.x = b'.x := by same m.x m'.x ["data-x", "data-x-high"]
  have e2 : b.y = b'.y := by same m.y m'.y ["data-y", "data-y-high"]
  have e3 : b.xoffset = b'.xoffset := by same m.xoffset m'.xoffset ["data-x-low"]
  have e4 : b.yoffset = b'.yoffset := by same m.yoffset m'.yoffset ["data-y-low"]
  have e5 : b.size = b'.size := by same m.size m'.size ["width"]
  have e6 : b.sizes = b'.sizes := by same m.sizes m'.sizes ["widths"]
  have e7 : b.offset = b'.offset := by same m.offset m'.offset ["offset"]
  have e8 : b.offsets = b'.offsets := by same m.offsets m'.offsets ["offsets"]
  have e9 : b.stroke = b'.stroke := stroke_order (E := E) (hs ["color", "stroke-color"] (by decide)) (hs ["stroke-width", "stroke-style"] (by decide))
    (bars_stroke hp h) (bars_stroke hp h')
  have e10 : b.fill = b'.fill := by same m.fill m'.fill ["fill", "color"]
  have e11 : b.direction = b'.direction := by same m.direction m'.direction ["direction"]
  have e12 : b.labels = b'.labels := by same m.labels m'.labels ["labels"]
  have e13 : b.labelFonts = b'.labelFonts := m.labelFonts.trans m'.labelFonts.symm
  have e14 : b.labelFontSize = b'.labelFontSize := by same m.labelFontSize m'.labelFontSize ["label-font-size"]
  have e15 : b.labelColor = b'.labelColor := by same m.labelColor m'.labelColor ["label-color"]
  have e16 : b.labelPadding = b'.labelPadding := by same m.labelPadding m'.labelPadding ["label-padding"]
  clear m m' h h'
  cases b; cases b'
  simp only [BarsConf.mk.injEq]
  simp only at e0 e1 e2 e3 e4 e5 e6 e7 e8 e9 e10 e11 e12 e13 e14 e15 e16
  simp only [e0, e1, e2, e3, e4, e5, e6, e7, e8, e9, e10, e11, e12, e13, e14, e15, e16, and_self]

/-- `bars` with its options in another order. -/
theorem bars_order (s : PlotState φ) (hp : (s.env P).palette ≠ []) {cs cs' : List Expr} (h : SameUpToOrder barsGroups cs cs') :
    Alike (barsConfigure P s cs) (barsConfigure P s cs') := by
  rcases order_of (fun cs => bars_accepts (P := P) hp cs (barsDefault s)) h.1 (fun _ _ => bars_unique (P := P) hp h.2) with ⟨b, h1, h2⟩ | ⟨⟨b, f, h1⟩, b', f', h2⟩
  · simp only [barsConfigure, h1, h2]; exact alike_refl _
  · simp only [barsConfigure, h1, h2]; exact .inr ⟨⟨_, rfl⟩, _, rfl⟩

set_option maxHeartbeats 1000000 in
theorem areas_unique (hp : E.palette ≠ []) {cs cs' : List Expr} (hs : ∀ g ∈ areasGroups, cs.filter (named g) = cs'.filter (named g))
    {a b b' : AreasConf} (h : Executed (optTable (areasOpts P E)) cs a b) (h' : Executed (optTable (areasOpts P E)) cs' a b') : b = b' := by
  have m := areas_means hp h
  have m' := areas_means hp h'
  have e0 : b.refs = b'.refs := refs_order (fun g hg => hs g (by revert g; decide)) m.data m'.data
  have e1 : b.scales = b'.scales := scales_order (fun g hg => hs g (by revert g; decide)) m.scales m'.scales
  have e2 : b.x = b'.x := by same m.x m'.x ["data-x-high"]
  have e3 : b.y = b'.y := by same m.y m'.y ["data-y-high"]
  have e4 : b.xoffset = b'.xoffset := by same m.xoffset m'.xoffset ["data-x-low"]
  have e5 : b.yoffset = b'.yoffset := by same m.yoffset m'.yoffset ["data-y-low"]
  have e6 : b.strokeHigh = b'.strokeHigh := area_order (fun g hg => hs g (by revert g; decide)) (areas_high hp h) (areas_high hp h')
  have e7 : b.strokeLow = b'.strokeLow := area_order' (fun g hg => hs g (by revert g; decide)) (areas_low hp h) (areas_low hp h')
  have e8 : b.fill = b'.fill := by same m.fill m'.fill ["fill", "color"]
  have e9 : b.direction = b'.direction := by same m.direction m'.direction ["direction"]
  clear m m' h h'
  cases b; cases b'
  simp only [AreasConf.mk.injEq]
  simp only at e0 e1 e2 e3 e4 e5 e6 e7 e8 e9
  simp only [e0, e1, e2, e3, e4, e5, e6, e7, e8, e9, and_self]

/-- `areas` with its options in another order. -/
theorem areas_order (s : PlotState φ) (hp : (s.env P).palette ≠ []) {cs cs' : List Expr} (h : SameUpToOrder areasGroups cs cs') :
    Alike (areasConfigure P s cs) (areasConfigure P s cs') := by
  rcases order_of (fun cs => areas_accepts (P := P) hp cs (areasDefault s)) h.1 (fun _ _ => areas_unique (P := P) hp h.2) with ⟨b, h1, h2⟩ | ⟨⟨b, f, h1⟩, b', f', h2⟩
  · simp only [areasConfigure, h1, h2]; exact alike_refl _
  · simp only [areasConfigure, h1, h2]; exact .inr ⟨⟨_, rfl⟩, _, rfl⟩

set_option maxHeartbeats 1000000 in
theorem errorbars_unique (hp : E.palette ≠ []) {cs cs' : List Expr} (hs : ∀ g ∈ errorbarsGroups, cs.filter (named g) = cs'.filter (named g))
    {a b b' : ErrorbarsConf} (h : Executed (optTable (errorbarsOpts P E)) cs a b) (h' : Executed (optTable (errorbarsOpts P E)) cs' a b') : b = b' := by
  have m := errorbars_means hp h
  have m' := errorbars_means hp h'
  have e0 : b.scales = b'.scales := scales_order (fun g hg => hs g (by revert g; decide)) m.scales m'.scales
  have e1 : b.series.colors = b'.series.colors := by same m.colors.colors m'.colors.colors ["colors"]
  have e2 : b.series.colorMap = b'.series.colorMap := by same m.colors.colorMap m'.colors.colorMap ["color-map"]
  have e3 : b.series.sizes = b'.series.sizes := (errorbars_sizes h).1.trans (errorbars_sizes h').1.symm
  have e4 : b.series.sizeMap = b'.series.sizeMap := (errorbars_sizes h).2.trans (errorbars_sizes h').2.symm
  have e5 : b.x = b'.x := by same m.x m'.x ["data-x"]
  have e6 : b.y = b'.y := by same m.y m'.y ["data-y"]
  have e7 : b.xLow = b'.xLow := by same m.xLow m'.xLow ["data-x-low"]
  have e8 : b.xHigh = b'.xHigh := by same m.xHigh m'.xHigh ["data-x-high"]
  have e9 : b.yLow = b'.yLow := by same m.yLow m'.yLow ["data-y-low"]
  have e10 : b.yHigh = b'.yHigh := by same m.yHigh m'.yHigh ["data-y-high"]
  have e11 : b.barWidth = b'.barWidth := by same m.barWidth m'.barWidth ["width"]
  have e12 : b.strokeColor = b'.strokeColor := by same m.color m'.color ["color", "stroke-color"]
  have e13 : b.strokeWidth = b'.strokeWidth := by same m.strokeWidth m'.strokeWidth ["stroke-width"]
  have e14 : b.colors = b'.colors := m.loaded.trans m'.loaded.symm
  clear m m' h h'
  have es : b.series = b'.series := by
    revert e1 e2 e3 e4; cases b.series; cases b'.series; rintro rfl rfl rfl rfl; rfl
  cases b; cases b'
  simp only [ErrorbarsConf.mk.injEq]
  simp only at e0 e5 e6 e7 e8 e9 e10 e11 e12 e13 e14 es
  simp only [e0, e5, e6, e7, e8, e9, e10, e11, e12, e13, e14, es, and_self]

/-- `errorbars` with its options in another order. -/
theorem errorbars_order (s : PlotState φ) (hp : (s.env P).palette ≠ []) {cs cs' : List Expr} (h : SameUpToOrder errorbarsGroups cs cs') :
    Alike (errorbarsConfigure P s cs) (errorbarsConfigure P s cs') := by
  rcases order_of (fun cs => errorbars_accepts (P := P) hp cs (errorbarsDefault s)) h.1 (fun _ _ => errorbars_unique (P := P) hp h.2) with ⟨b, h1, h2⟩ | ⟨⟨b, f, h1⟩, b', f', h2⟩
  · simp only [errorbarsConfigure, h1, h2]; exact alike_refl _
  · simp only [errorbarsConfigure, h1, h2]; exact .inr ⟨⟨_, rfl⟩, _, rfl⟩

set_option maxHeartbeats 1000000 in
theorem rectangles_unique (hp : E.palette ≠ []) {cs cs' : List Expr} (hs : ∀ g ∈ rectanglesGroups, cs.filter (named g) = cs'.filter (named g))
    {a b b' : RectanglesConf} (h : Executed (optTable (rectanglesOpts P E)) cs a b) (h' : Executed (optTable (rectanglesOpts P E)) cs' a b') : b = b' := by
  have m := rectangles_means hp h
  have m' := rectangles_means hp h'
  have e0 : b.refs = b'.refs := refs_order (fun g hg => hs g (by revert g; decide)) m.data m'.data
  have e1 : b.scales = b'.scales := scales_order (fun g hg => hs g (by revert g; decide)) m.scales m'.scales
  have e2 : b.series.colors = b'.series.colors := by same m.colors.colors m'.colors.colors ["colors"]
  have e3 : b.series.colorMap = b'.series.colorMap := by same m.colors.colorMap m'.colors.colorMap ["color-map"]
  have e4 : b.series.sizes = b'.series.sizes := (rectangles_sizes h).1.trans (rectangles_sizes h').1.symm
  have e5 : b.series.sizeMap = b'.series.sizeMap := (rectangles_sizes h).2.trans (rectangles_sizes h').2.symm
  have e6 : b.sizeX = b'.sizeX := by same m.sizeX m'.sizeX ["data-size-x", "data-size"]
  have e7 : b.sizeY = b'.sizeY := by same m.sizeY m'.sizeY ["data-size-y", "data-size"]
  have e8 : b.sizeXDefault = b'.sizeXDefault := by same m.sizeXDefault m'.sizeXDefault ["size", "size-x"]
  have e9 : b.sizeYDefault = b'.sizeYDefault := by same m.sizeYDefault m'.sizeYDefault ["size", "size-y"]
  have e10 : b.color = b'.color := by same m.color m'.color ["color"]
  have e11 : b.x = b'.x := m.loaded.1.trans m'.loaded.1.symm
  have e12 : b.y = b'.y := m.loaded.2.1.trans m'.loaded.2.1.symm
  have e13 : b.colors = b'.colors := m.loaded.2.2.trans m'.loaded.2.2.symm
  clear m m' h h'
  have es : b.series = b'.series := by
    revert e2 e3 e4 e5; cases b.series; cases b'.series; rintro rfl rfl rfl rfl; rfl
  cases b; cases b'
  simp only [RectanglesConf.mk.injEq]
  simp only at e0 e1 e6 e7 e8 e9 e10 e11 e12 e13 es
  simp only [e0, e1, e6, e7, e8, e9, e10, e11, e12, e13, es, and_self]

/-- `rectangles` with its options in another order. -/
theorem rectangles_order (s : PlotState φ) (hp : (s.env P).palette ≠ []) {cs cs' : List Expr} (h : SameUpToOrder rectanglesGroups cs cs') :
    Alike (rectanglesConfigure P s cs) (rectanglesConfigure P s cs') := by
  rcases order_of (fun cs => rectangles_accepts (P := P) hp cs (rectanglesDefault s)) h.1 (fun _ _ => rectangles_unique (P := P) hp h.2) with ⟨b, h1, h2⟩ | ⟨⟨b, f, h1⟩, b', f', h2⟩
  · simp only [rectanglesConfigure, h1, h2]; exact alike_refl _
  · simp only [rectanglesConfigure, h1, h2]; exact .inr ⟨⟨_, rfl⟩, _, rfl⟩

set_option maxHeartbeats 1000000 in
theorem vectors_unique (hp : E.palette ≠ []) {cs cs' : List Expr} (hs : ∀ g ∈ vectorsGroups, cs.filter (named g) = cs'.filter (named g))
    {a b b' : VectorsConf} (h : Executed (optTable (vectorsOpts P E)) cs a b) (h' : Executed (optTable (vectorsOpts P E)) cs' a b') : b = b' := by
  have m := vectors_means hp h
  have m' := vectors_means hp h'
  have e0 : b.refs = b'.refs := refs_order (fun g hg => hs g (by revert g; decide)) m.data m'.data
  have e1 : b.scales = b'.scales := scales_order (fun g hg => hs g (by revert g; decide)) m.scales m'.scales
  have e2 : b.series.colors = b'.series.colors := by same m.colors.colors m'.colors.colors ["colors"]
  have e3 : b.series.colorMap = b'.series.colorMap := by same m.colors.colorMap m'.colors.colorMap ["color-map"]
  have e4 : b.series.sizes = b'.series.sizes := by same m.sizes.sizes m'.sizes.sizes ["sizes"]
  have e5 : b.series.sizeMap = b'.series.sizeMap := by same m.sizes.sizeMap m'.sizes.sizeMap ["size-map"]
  have e6 : b.dx = b'.dx := by same m.dx m'.dx ["data-dx"]
  have e7 : b.dy = b'.dy := by same m.dy m'.dy ["data-dy"]
  have e8 : b.color = b'.color := by same m.color m'.color ["color"]
  have e9 : b.size = b'.size := by same m.size m'.size ["size"]
  have e10 : b.x = b'.x := m.loaded.1.trans m'.loaded.1.symm
  have e11 : b.y = b'.y := m.loaded.2.1.trans m'.loaded.2.1.symm
  have e12 : b.colors = b'.colors := m.loaded.2.2.1.trans m'.loaded.2.2.1.symm
  have e13 : b.sizes = b'.sizes := m.loaded.2.2.2.trans m'.loaded.2.2.2.symm
  clear m m' h h'
  have es : b.series = b'.series := by
    revert e2 e3 e4 e5; cases b.series; cases b'.series; rintro rfl rfl rfl rfl; rfl
  cases b; cases b'
  simp only [VectorsConf.mk.injEq]
  simp only at e0 e1 e6 e7 e8 e9 e10 e11 e12 e13 es
  simp only [e0, e1, e6, e7, e8, e9, e10, e11, e12, e13, es, and_self]

/-- `vectors` with its options in another order. -/
theorem vectors_order (s : PlotState φ) (hp : (s.env P).palette ≠ []) {cs cs' : List Expr} (h : SameUpToOrder vectorsGroups cs cs') :
    Alike (vectorsConfigure P s cs) (vectorsConfigure P s cs') := by
  rcases order_of (fun cs => vectors_accepts (P := P) hp cs (vectorsDefault s)) h.1 (fun _ _ => vectors_unique (P := P) hp h.2) with ⟨b, h1, h2⟩ | ⟨⟨b, f, h1⟩, b', f', h2⟩
  · simp only [vectorsConfigure, h1, h2]; exact alike_refl _
  · simp only [vectorsConfigure, h1, h2]; exact .inr ⟨⟨_, rfl⟩, _, rfl⟩

set_option maxHeartbeats 1000000 in
theorem labels_unique (hp : E.palette ≠ []) {cs cs' : List Expr} (hs : ∀ g ∈ labelsGroups, cs.filter (named g) = cs'.filter (named g))
    {a b b' : LabelsConf φ} (h : Executed (optTable (labelsOpts P E)) cs a b) (h' : Executed (optTable (labelsOpts P E)) cs' a b') : b = b' := by
  have m := labels_means hp h
  have m' := labels_means hp h'
  have e0 : b.refs = b'.refs := refs_order (fun g hg => hs g (by revert g; decide)) m.data m'.data
  have e1 : b.scales = b'.scales := scales_order (fun g hg => hs g (by revert g; decide)) m.scales m'.scales
  have e2 : b.labels = b'.labels := by same m.labels m'.labels ["labels"]
  have e3 : b.labelFonts = b'.labelFonts := by same m.labelFonts m'.labelFonts ["label-font", "font"]
  have e4 : b.labelFontSize = b'.labelFontSize := by same m.labelFontSize m'.labelFontSize ["label-font-size"]
  have e5 : b.labelColor = b'.labelColor := by same m.labelColor m'.labelColor ["label-color"]
  have e6 : b.labelPadding = b'.labelPadding := by same m.labelPadding m'.labelPadding ["label-padding"]
  have e7 : b.x = b'.x := m.loaded.1.trans m'.loaded.1.symm
  have e8 : b.y = b'.y := m.loaded.2.trans m'.loaded.2.symm
  clear m m' h h'
  cases b; cases b'
  simp only [LabelsConf.mk.injEq]
  simp only at e0 e1 e2 e3 e4 e5 e6 e7 e8
  simp only [e0, e1, e2, e3, e4, e5, e6, e7, e8, and_self]

/-- `labels` with its options in another order. -/
theorem labels_order (s : PlotState φ) (hp : (s.env P).palette ≠ []) {cs cs' : List Expr} (h : SameUpToOrder labelsGroups cs cs') :
    Alike (labelsConfigure P s cs) (labelsConfigure P s cs') := by
  rcases order_of (fun cs => labels_accepts (P := P) hp cs (labelsDefault s)) h.1 (fun _ _ => labels_unique (P := P) hp h.2) with ⟨b, h1, h2⟩ | ⟨⟨b, f, h1⟩, b', f', h2⟩
  · simp only [labelsConfigure, h1, h2]; exact alike_refl _
  · simp only [labelsConfigure, h1, h2]; exact .inr ⟨⟨_, rfl⟩, _, rfl⟩

set_option maxHeartbeats 1000000 in
theorem polygons_unique (hp : E.palette ≠ []) {cs cs' : List Expr} (hs : ∀ g ∈ polygonsGroups, cs.filter (named g) = cs'.filter (named g))
    {a b b' : PolygonsConf} (h : Executed (optTable (polygonsOpts P E)) cs a b) (h' : Executed (optTable (polygonsOpts P E)) cs' a b') : b = b' := by
  have m := polygons_means hp h
  have m' := polygons_means hp h'
  have e0 : b.scales.x = b'.scales.x := polyX_order (fun g hg => hs g (by revert g; decide)) m.x m'.x
  have e1 : b.scales.y = b'.scales.y := polyY_order (fun g hg => hs g (by revert g; decide)) m.y m'.y
  have e2 : b.polys = b'.polys := by same m.polys m'.polys ["data"]
  have e3 : b.fill = b'.fill := by same m.fill m'.fill ["fill", "color"]
  have e4 : b.stroke = b'.stroke := stroke_order (E := E) (hs ["color", "stroke-color"] (by decide)) (hs ["stroke-width", "stroke-style"] (by decide))
    (polygons_stroke hp h) (polygons_stroke hp h')
  clear m m' h h'
  have es : b.scales = b'.scales := by
    revert e0 e1; cases b.scales; cases b'.scales; rintro rfl rfl; rfl
  cases b; cases b'
  simp only [PolygonsConf.mk.injEq]
  simp only at e2 e3 e4 es
  simp only [e2, e3, e4, es, and_self]

/-- `polygons` with its options in another order. -/
theorem polygons_order (s : PlotState φ) (hp : (s.env P).palette ≠ []) {cs cs' : List Expr} (h : SameUpToOrder polygonsGroups cs cs') :
    Alike (polygonsConfigure P s cs) (polygonsConfigure P s cs') := by
  rcases order_of (fun cs => polygons_accepts (P := P) hp cs (polygonsDefault s)) h.1 (fun _ _ => polygons_unique (P := P) hp h.2) with ⟨b, h1, h2⟩ | ⟨⟨b, f, h1⟩, b', f', h2⟩
  · simp only [polygonsConfigure, h1, h2]; exact alike_refl _
  · simp only [polygonsConfigure, h1, h2]; exact .inr ⟨⟨_, rfl⟩, _, rfl⟩

set_option maxHeartbeats 1000000 in
theorem grid_unique (hp : E.palette ≠ []) {cs cs' : List Expr} (hs : ∀ g ∈ gridGroups, cs.filter (named g) = cs'.filter (named g))
    {a b b' : GridConf} (h : Executed (optTable (gridOpts P E)) cs a b) (h' : Executed (optTable (gridOpts P E)) cs' a b') : b = b' := by
  have m := grid_means hp h
  have m' := grid_means hp h'
  have e0 : b.scales = b'.scales := scales_order (fun g hg => hs g (by revert g; decide)) m.scales m'.scales
  have e1 : b.layoutX = b'.layoutX := by same m.layoutX m'.layoutX ["tick-placement-x"]
  have e2 : b.layoutY = b'.layoutY := by same m.layoutY m'.layoutY ["tick-placement-y"]
  have e3 : b.stroke = b'.stroke := stroke_order (E := E) (hs ["color", "stroke-color"] (by decide)) (hs ["stroke-width", "stroke-style"] (by decide))
    (grid_stroke hp h) (grid_stroke hp h')
  clear m m' h h'
  cases b; cases b'
  simp only [GridConf.mk.injEq]
  simp only at e0 e1 e2 e3
  simp only [e0, e1, e2, e3, and_self]

/-- `grid` with its options in another order. -/
theorem grid_order (s : PlotState φ) (hp : (s.env P).palette ≠ []) {cs cs' : List Expr} (h : SameUpToOrder gridGroups cs cs') :
    Alike (gridConfigure P s cs) (gridConfigure P s cs') := by
  rcases order_of (fun cs => grid_accepts (P := P) hp cs (gridDefault s)) h.1 (fun _ _ => grid_unique (P := P) hp h.2) with ⟨b, h1, h2⟩ | ⟨⟨b, f, h1⟩, b', f', h2⟩
  · simp only [gridConfigure, h1, h2]; exact alike_refl _
  · simp only [gridConfigure, h1, h2]; exact .inr ⟨⟨_, rfl⟩, _, rfl⟩

set_option maxHeartbeats 1000000 in
theorem background_unique (hp : E.palette ≠ []) {cs cs' : List Expr} (hs : ∀ g ∈ backgroundGroups, cs.filter (named g) = cs'.filter (named g))
    {a b b' : BackgroundConf} (h : Executed (optTable (backgroundOpts E)) cs a b) (h' : Executed (optTable (backgroundOpts E)) cs' a b') : b = b' := by
  have m := background_means hp h
  have m' := background_means hp h'
  have e0 : b.fill = b'.fill := by same m.fill m'.fill ["fill", "color"]
  have e1 : b.stroke = b'.stroke := stroke_order (E := E) (hs ["color", "stroke-color"] (by decide)) (hs ["stroke-width", "stroke-style"] (by decide))
    (background_stroke hp h) (background_stroke hp h')
  clear m m' h h'
  cases b; cases b'
  simp only [BackgroundConf.mk.injEq]
  simp only at e0 e1
  simp only [e0, e1, and_self]

/-- `background` with its options in another order. -/
theorem background_order (s : PlotState φ) (hp : (s.env P).palette ≠ []) {cs cs' : List Expr} (h : SameUpToOrder backgroundGroups cs cs') :
    Alike (backgroundConfigure P s cs) (backgroundConfigure P s cs') := by
  rcases order_of (fun cs => background_accepts hp cs (⟨.default, { StrokeState.default with width := s.pt 1 }⟩ : BackgroundConf)) h.1 (fun _ _ => background_unique hp h.2) with ⟨b, h1, h2⟩ | ⟨⟨b, f, h1⟩, b', f', h2⟩
  · simp only [backgroundConfigure, h1, h2]; exact alike_refl _
  · simp only [backgroundConfigure, h1, h2]; exact .inr ⟨⟨_, rfl⟩, _, rfl⟩

end Clip.Reorder
