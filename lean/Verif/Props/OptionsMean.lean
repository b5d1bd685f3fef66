import Verif.Props.Options
import Verif.Props.OptionArgs
set_option linter.unusedSimpArgs false
/-!
# C90: what the plot elements make of their options
-/
namespace Clip
open Commands Settings Pictures Drawing Options
variable {φ : Type}

theorem configured_of {σ : Type} {opts : List (String × Handler σ Fail)} {t : Takes} {start : σ} {args : List Expr}
    {run : Except Fail σ} {means : σ → Prop} {loads : σ → σ → Prop}
    (hacc : (∃ b, Executed (optTable opts) args start b) ↔ Acceptable t args)
    (hbad : ∀ c f, walkRead (optTable opts) args start = (c, some f) → run = .error f)
    (hgood : ∀ o, walkRead (optTable opts) args start = (o, none) → ∀ c, run = .ok c ↔ loads o c)
    (hmeans : ∀ o, Executed (optTable opts) args start o → means o) :
    Configured run (Acceptable t args) means loads := by
  constructor
  · intro hno c hc
    cases hw : walkRead (optTable opts) args start with
    | mk o f =>
      cases f with
      | some f => rw [hbad _ _ hw] at hc; cases hc
      | none => exact hno (hacc.1 ⟨o, (walkRead_ok _ _ _ _).1 hw⟩)
  · intro hok
    obtain ⟨o, ho⟩ := hacc.2 hok
    exact ⟨o, hmeans o ho, hgood o ((walkRead_ok _ _ _ _).2 ho)⟩

theorem convertAll_ok {α : Type} {f : Str → Except Fail α} {vs : List Str} {as : List α} :
    convertAllWith f vs = .ok as ↔ List.Forall₂ (fun v a => f v = .ok a) vs as := by
  induction vs generalizing as with
  | nil => simp [convertAllWith, eq_comm]
  | cons v vs ih =>
    simp only [convertAllWith, List.forall₂_cons_left_iff]
    cases hv : f v with
    | error e => simp
    | ok a =>
      cases hvs : convertAllWith f vs with
      | error e =>
        simp only [false_iff, reduceCtorEq, Except.ok.injEq]
        rintro ⟨b, bs, rfl, h, rfl⟩
        rw [ih.2 h] at hvs; cases hvs
      | ok bs =>
        have hbs := ih.1 hvs
        simp only [Except.ok.injEq]
        constructor
        · rintro rfl; exact ⟨a, bs, rfl, hbs, rfl⟩
        · rintro ⟨b, bs', rfl, h, rfl⟩
          rw [ih.2 h] at hvs; cases hvs; rfl

theorem loadPoints_ok {P : PlotEnv φ} {o : DataRefs} {x₀ y₀ x y : DataBuffer (Option ℝ)} :
    loadPoints P o x₀ y₀ = .ok (x, y) ↔ LoadsPoints P o x₀ y₀ x y := by
  unfold loadPoints LoadsPoints databufLen
  rcases dataLoadPoints2 P.readFile P.geoPoints o.path o.format o.refX o.refY x₀ y₀ with ⟨⟨x', y'⟩, _ | _ | _ | _⟩
  · by_cases h : x'.index.length = y'.index.length
    · simp only [h, ne_eq, not_true, if_false, Except.ok.injEq, Prod.mk.injEq]
      constructor
      · rintro ⟨rfl, rfl⟩; exact ⟨(), ⟨⟨rfl, rfl⟩, trivial⟩, h⟩
      · rintro ⟨u, ⟨⟨rfl, rfl⟩, -⟩, -⟩; exact ⟨rfl, rfl⟩
    · simp only [ne_eq, h, not_false_eq_true, if_true, reduceCtorEq, false_iff]
      rintro ⟨u, h1, h2⟩
      simp only [Prod.mk.injEq] at h1
      obtain ⟨⟨rfl, rfl⟩, -⟩ := h1
      exact h h2
  all_goals simp

theorem rangeCheck_iff {x xo y yo : DataBuffer (Option ℝ)} : rangeCheck x xo y yo = true ↔ RangesFit x xo y yo := by
  unfold rangeCheck RangesFit databufLen
  simp only [Bool.and_eq_true, Bool.or_eq_true, decide_eq_true_eq, and_assoc]
  constructor <;> rintro ⟨h1, h2, h3⟩ <;> exact ⟨h1, h2.imp_right Eq.symm, h3.imp_right Eq.symm⟩

theorem bind_ok_iff {ε α β : Type} {x : Except ε α} {f : α → Except ε β} {b : β} :
    (x >>= f) = .ok b ↔ ∃ a, x = .ok a ∧ f a = .ok b := by
  cases x <;> simp [bind, Except.bind]

theorem errorbarsCheck_iff (o : ErrorbarsConf) : (errorbarsCheck o).isSome = true ↔
    ((o.x.index ≠ [] ∧ o.y.index = [] ∧ o.yLow.index.length = o.x.index.length ∧ o.yHigh.index.length = o.x.index.length) ∨
     (o.y.index ≠ [] ∧ o.x.index = [] ∧ o.xLow.index.length = o.y.index.length ∧ o.xHigh.index.length = o.y.index.length)) := by
  unfold errorbarsCheck databufLen
  simp only [← List.length_pos_iff, ← List.length_eq_zero_iff]
  generalize o.x.index.length = a
  generalize o.y.index.length = b
  generalize o.xLow.index.length = c
  generalize o.xHigh.index.length = d
  generalize o.yLow.index.length = e
  generalize o.yHigh.index.length = f
  simp only [gt_iff_lt, Bool.and_eq_true, decide_eq_true_eq, ne_eq]
  split <;> (try split) <;> (try split) <;> simp <;> omega

/-- C90: the options of `lines`. -/
theorem C90_lines (P : PlotEnv φ) (s : PlotState φ) (hp : (s.env P).palette ≠ []) (args : List Expr) :
    Configured (linesConfigure P s args) (Acceptable (linesTakes P (s.env P)) args)
      (LinesMeans P (s.env P) args (linesDefault s)) (linesLoads P) := by
  refine configured_of (lines_accepts hp args _) (fun c f h => ?_) (fun o h c => ?_) fun o h => lines_means hp h
  · simp only [linesConfigure, h]
  · simp only [linesConfigure, h]
    unfold linesLoads
    cases hd : dataLoadPolylines2 P.readFile P.geoLines o.refs.path o.refs.format o.refs.refX o.refs.refY o.x o.y o.groups with
    | mk r out =>
      obtain ⟨x, y, g⟩ := r
      cases out with
      | ok u =>
        simp only [linesCheck, databufLen, Prod.mk.injEq]
        by_cases h1 : x.index.length = y.index.length
        · by_cases h2 : x.index = []
          · have h3 : y.index.length = 0 := by rw [← h1, h2]; rfl
            simp only [h1, h3, ne_eq, not_true, if_false, or_self, if_true, reduceCtorEq, false_iff]
            rintro ⟨x', y', g', u', ⟨⟨rfl, rfl, rfl⟩, -⟩, -, h, -⟩
            exact h h2
          · have h3 : ¬ (y.index.length = 0) := by rw [← h1]; simpa using h2
            simp only [h1, h3, ne_eq, not_true, if_false, or_self, Except.ok.injEq]
            constructor
            · rintro rfl; exact ⟨x, y, g, u, ⟨⟨rfl, rfl, rfl⟩, trivial⟩, h1, h2, rfl⟩
            · rintro ⟨x', y', g', u', ⟨⟨rfl, rfl, rfl⟩, -⟩, -, -, rfl⟩; rfl
        · simp only [ne_eq, h1, not_false_eq_true, if_true, reduceCtorEq, false_iff]
          rintro ⟨x', y', g', u', ⟨⟨rfl, rfl, rfl⟩, -⟩, h, -⟩
          exact h1 h
      | _ => simp

/-- C90: the options of `points`. -/
theorem C90_points (P : PlotEnv φ) (s : PlotState φ) (hp : (s.env P).palette ≠ []) (args : List Expr) :
    Configured (pointsConfigure P s args) (Acceptable (pointsTakes P (s.env P)) args)
      (PointsMeans P (s.env P) args (pointsDefault s)) (pointsLoads P) := by
  refine configured_of (points_accepts hp args _) (fun c f h => ?_) (fun o h c => ?_) fun o h => points_means hp h
  · simp only [pointsConfigure, h]
  · simp only [pointsConfigure, h]
    unfold pointsLoads
    constructor
    · intro h
      simp only [bind_ok_iff] at h
      obtain ⟨⟨x, y⟩, h1, colors, h2, sizes, h3, h9⟩ := h
      cases h9
      exact ⟨x, y, colors, sizes, loadPoints_ok.1 h1, convertAll_ok.1 h2, convertAll_ok.1 h3, rfl⟩
    · rintro ⟨x, y, colors, sizes, h1, h2, h3, rfl⟩
      simp only [bind_ok_iff]
      exact ⟨(x, y), loadPoints_ok.2 h1, colors, convertAll_ok.2 h2, sizes, convertAll_ok.2 h3, rfl⟩

/-- C90: the options of `bars`. -/
theorem C90_bars (P : PlotEnv φ) (s : PlotState φ) (hp : (s.env P).palette ≠ []) (args : List Expr) :
    Configured (barsConfigure P s args) (Acceptable (barsTakes P (s.env P)) args)
      (BarsMeans P (s.env P) args (barsDefault s)) barsLoads := by
  refine configured_of (bars_accepts hp args _) (fun c f h => ?_) (fun o h c => ?_) fun o h => bars_means hp h
  · simp only [barsConfigure, h]
  · simp only [barsConfigure, h]
    unfold barsLoads
    by_cases h : rangeCheck o.x o.xoffset o.y o.yoffset = true
    · simp only [h, if_true, Except.ok.injEq]
      exact ⟨fun e => ⟨rangeCheck_iff.1 h, e.symm⟩, fun e => e.2.symm⟩
    · simp only [h, if_false, reduceCtorEq, false_iff]
      exact fun e => h (rangeCheck_iff.2 e.1)

/-- C90: the options of `areas`. -/
theorem C90_areas (P : PlotEnv φ) (s : PlotState φ) (hp : (s.env P).palette ≠ []) (args : List Expr) :
    Configured (areasConfigure P s args) (Acceptable (areasTakes P (s.env P)) args)
      (AreasMeans P (s.env P) args (areasDefault s)) (areasLoads P) := by
  refine configured_of (areas_accepts hp args _) (fun c f h => ?_) (fun o h c => ?_) fun o h => areas_means hp h
  · simp only [areasConfigure, h]
  · simp only [areasConfigure, h]
    unfold areasLoads
    cases hd : dataLoadPoints2 P.readFile P.geoPoints o.refs.path o.refs.format o.refs.refX o.refs.refY o.x o.y with
    | mk r out =>
      obtain ⟨x, y⟩ := r
      cases out with
      | ok u =>
        simp only [Prod.mk.injEq]
        by_cases h : rangeCheck x o.xoffset y o.yoffset = true
        · simp only [h, if_true, Except.ok.injEq]
          constructor
          · rintro rfl; exact ⟨x, y, u, ⟨⟨rfl, rfl⟩, trivial⟩, rangeCheck_iff.1 h, rfl⟩
          · rintro ⟨x', y', u', ⟨⟨rfl, rfl⟩, -⟩, -, rfl⟩; rfl
        · simp only [h, if_false, reduceCtorEq, false_iff]
          rintro ⟨x', y', u', ⟨⟨rfl, rfl⟩, -⟩, h', -⟩
          exact h (rangeCheck_iff.2 h')
      | _ => simp

/-- C90: the options of `errorbars`. -/
theorem C90_errorbars (P : PlotEnv φ) (s : PlotState φ) (hp : (s.env P).palette ≠ []) (args : List Expr) :
    Configured (errorbarsConfigure P s args) (Acceptable (errorbarsTakes P (s.env P)) args)
      (ErrorbarsMeans P (s.env P) args (errorbarsDefault s)) (errorbarsLoads P) := by
  refine configured_of (errorbars_accepts hp args _) (fun c f h => ?_) (fun o h c => ?_) fun o h => errorbars_means hp h
  · simp only [errorbarsConfigure, h]
  · simp only [errorbarsConfigure, h]
    unfold errorbarsLoads
    have hchk := errorbarsCheck_iff o
    cases he : errorbarsCheck o with
    | none =>
      simp only [reduceCtorEq, false_iff]
      rintro ⟨colors, -, -, h⟩
      rw [he] at hchk
      simpa using hchk.2 h
    | some d =>
      rw [he] at hchk
      have hs := hchk.1 rfl
      simp only [bind_ok_iff]
      constructor
      · rintro ⟨colors, h2, h9⟩
        cases h9
        exact ⟨colors, convertAll_ok.1 h2, rfl, hs⟩
      · rintro ⟨colors, h2, rfl, -⟩
        exact ⟨colors, convertAll_ok.2 h2, rfl⟩

/-- C90: the options of `rectangles`. -/
theorem C90_rectangles (P : PlotEnv φ) (s : PlotState φ) (hp : (s.env P).palette ≠ []) (args : List Expr) :
    Configured (rectanglesConfigure P s args) (Acceptable (rectanglesTakes P (s.env P)) args)
      (RectanglesMeans P (s.env P) args (rectanglesDefault s)) (rectanglesLoads P) := by
  refine configured_of (rectangles_accepts hp args _) (fun c f h => ?_) (fun o h c => ?_) fun o h => rectangles_means hp h
  · simp only [rectanglesConfigure, h]
  · simp only [rectanglesConfigure, h]
    unfold rectanglesLoads
    constructor
    · intro h
      simp only [bind_ok_iff] at h
      obtain ⟨⟨x, y⟩, h1, colors, h2, h9⟩ := h
      cases h9
      exact ⟨x, y, colors, loadPoints_ok.1 h1, convertAll_ok.1 h2, rfl⟩
    · rintro ⟨x, y, colors, h1, h2, rfl⟩
      simp only [bind_ok_iff]
      exact ⟨(x, y), loadPoints_ok.2 h1, colors, convertAll_ok.2 h2, rfl⟩

/-- C90: the options of `vectors`. -/
theorem C90_vectors (P : PlotEnv φ) (s : PlotState φ) (hp : (s.env P).palette ≠ []) (args : List Expr) :
    Configured (vectorsConfigure P s args) (Acceptable (vectorsTakes P (s.env P)) args)
      (VectorsMeans P (s.env P) args (vectorsDefault s)) (vectorsLoads P) := by
  refine configured_of (vectors_accepts hp args _) (fun c f h => ?_) (fun o h c => ?_) fun o h => vectors_means hp h
  · simp only [vectorsConfigure, h]
  · simp only [vectorsConfigure, h]
    unfold vectorsLoads
    constructor
    · intro h
      simp only [bind_ok_iff] at h
      obtain ⟨⟨x, y⟩, h1, colors, h2, sizes, h3, h9⟩ := h
      cases h9
      exact ⟨x, y, colors, sizes, loadPoints_ok.1 h1, convertAll_ok.1 h2, convertAll_ok.1 h3, rfl⟩
    · rintro ⟨x, y, colors, sizes, h1, h2, h3, rfl⟩
      simp only [bind_ok_iff]
      exact ⟨(x, y), loadPoints_ok.2 h1, colors, convertAll_ok.2 h2, sizes, convertAll_ok.2 h3, rfl⟩

/-- C90: the options of `labels`. -/
theorem C90_labels (P : PlotEnv φ) (s : PlotState φ) (hp : (s.env P).palette ≠ []) (args : List Expr) :
    Configured (labelsConfigure P s args) (Acceptable (labelsTakes P (s.env P)) args)
      (LabelsMeans P (s.env P) args (labelsDefault s)) (labelsLoads P) := by
  refine configured_of (labels_accepts hp args _) (fun c f h => ?_) (fun o h c => ?_) fun o h => labels_means hp h
  · simp only [labelsConfigure, h]
  · simp only [labelsConfigure, h]
    unfold labelsLoads
    constructor
    · intro h
      simp only [bind_ok_iff] at h
      obtain ⟨⟨x, y⟩, h1, h9⟩ := h
      cases h9
      exact ⟨x, y, loadPoints_ok.1 h1, rfl⟩
    · rintro ⟨x, y, h1, rfl⟩
      simp only [bind_ok_iff]
      exact ⟨(x, y), loadPoints_ok.2 h1, rfl⟩

/-- C90: the options of `polygons`. -/
theorem C90_polygons (P : PlotEnv φ) (s : PlotState φ) (hp : (s.env P).palette ≠ []) (args : List Expr) :
    Configured (polygonsConfigure P s args) (Acceptable (polygonsTakes P (s.env P)) args)
      (PolygonsMeans P (s.env P) args (polygonsDefault s)) (fun o c => c = { o with scales := fitPolys o.polys o.scales }) := by
  refine configured_of (polygons_accepts hp args _) (fun c f h => ?_) (fun o h c => ?_) fun o h => polygons_means hp h
  · simp only [polygonsConfigure, h]
  · simp only [polygonsConfigure, h]
    simp only [Except.ok.injEq]
    exact eq_comm

/-- C90: the options of `grid`. -/
theorem C90_grid (P : PlotEnv φ) (s : PlotState φ) (hp : (s.env P).palette ≠ []) (args : List Expr) :
    Configured (gridConfigure P s args) (Acceptable (gridTakes P (s.env P)) args)
      (GridMeans P (s.env P) args (gridDefault s)) (fun o c => c = o) := by
  refine configured_of (grid_accepts hp args _) (fun c f h => ?_) (fun o h c => ?_) fun o h => grid_means hp h
  · simp only [gridConfigure, h]
  · simp only [gridConfigure, h]
    simp only [Except.ok.injEq]
    exact eq_comm

/-- C90: the options of `background`. -/
theorem C90_background (P : PlotEnv φ) (s : PlotState φ) (hp : (s.env P).palette ≠ []) (args : List Expr) :
    Configured (backgroundConfigure P s args) (Acceptable (backgroundTakes (s.env P)) args)
      (BackgroundMeans (s.env P) args ⟨.default, { StrokeState.default with width := s.pt 1 }⟩) (fun o c => c = o) := by
  refine configured_of (background_accepts hp args _) (fun c f h => ?_) (fun o h c => ?_) fun o h => background_means hp h
  · simp only [backgroundConfigure, h]
  · simp only [backgroundConfigure, h]
    simp only [Except.ok.injEq]
    exact eq_comm

/-- A command with an option its element does not know draws nothing and is refused. -/
theorem C90_unknown (P : PlotEnv φ) (s : PlotState φ) (hp : (s.env P).palette ≠ []) (args : List Expr) (c : Expr)
    (hc : c ∈ args) :
    ((∀ n A, (n, A) ∈ linesTakes P (s.env P) → nameOf c ≠ some (String.toList n)) → ∃ f, linesCmd P args s = (s, some f)) ∧
    ((∀ n A, (n, A) ∈ pointsTakes P (s.env P) → nameOf c ≠ some (String.toList n)) → ∃ f, pointsCmd P args s = (s, some f)) ∧
    ((∀ n A, (n, A) ∈ barsTakes P (s.env P) → nameOf c ≠ some (String.toList n)) → ∃ f, barsCmd P args s = (s, some f)) ∧
    ((∀ n A, (n, A) ∈ areasTakes P (s.env P) → nameOf c ≠ some (String.toList n)) → ∃ f, areasCmd P args s = (s, some f)) ∧
    ((∀ n A, (n, A) ∈ errorbarsTakes P (s.env P) → nameOf c ≠ some (String.toList n)) →
      ∃ f, errorbarsCmd P args s = (s, some f)) ∧
    ((∀ n A, (n, A) ∈ rectanglesTakes P (s.env P) → nameOf c ≠ some (String.toList n)) →
      ∃ f, rectanglesCmd P args s = (s, some f)) ∧
    ((∀ n A, (n, A) ∈ vectorsTakes P (s.env P) → nameOf c ≠ some (String.toList n)) → ∃ f, vectorsCmd P args s = (s, some f)) ∧
    ((∀ n A, (n, A) ∈ labelsTakes P (s.env P) → nameOf c ≠ some (String.toList n)) → ∃ f, labelsCmd P args s = (s, some f)) ∧
    ((∀ n A, (n, A) ∈ polygonsTakes P (s.env P) → nameOf c ≠ some (String.toList n)) →
      ∃ f, polygonsCmd P args s = (s, some f)) ∧
    ((∀ n A, (n, A) ∈ gridTakes P (s.env P) → nameOf c ≠ some (String.toList n)) → ∃ f, gridCmd P args s = (s, some f)) ∧
    ((∀ n A, (n, A) ∈ backgroundTakes (s.env P) → nameOf c ≠ some (String.toList n)) →
      ∃ f, backgroundCmd P args s = (s, some f)) := by
  have key : ∀ {κ : Type} {configure : PlotState φ → List Expr → Except Fail κ}
      {k : κ → PlotState φ → PlotState φ × Option Fail} {t : Takes} {means : κ → Prop} {loads : κ → κ → Prop},
      Configured (configure s args) (Acceptable t args) means loads →
      (∀ n A, (n, A) ∈ t → nameOf c ≠ some (String.toList n)) → ∃ f, withConfig configure k args s = (s, some f) := by
    intro κ configure k t means loads hconf hno
    have hbad : ¬ Acceptable t args := by
      intro h
      obtain ⟨n, A, hA, hn, _⟩ := h c hc
      exact hno n A hA hn
    have := hconf.1 hbad
    unfold withConfig
    cases hr : configure s args with
    | error f => exact ⟨f, rfl⟩
    | ok v => exact absurd hr (this v)
  exact ⟨key (C90_lines P s hp args), key (C90_points P s hp args), key (C90_bars P s hp args), key (C90_areas P s hp args),
    key (C90_errorbars P s hp args), key (C90_rectangles P s hp args), key (C90_vectors P s hp args),
    key (C90_labels P s hp args), key (C90_polygons P s hp args), key (C90_grid P s hp args),
    key (C90_background P s hp args)⟩

/-- Violated by the code: bars with widths or offsets given as a list are refused, whatever the list is; only a column of
a CSV file is read. -/
theorem C90_inline_lengths (P : PlotEnv φ) (s : PlotState φ) (args : List Expr) (n : Expr)
    (hn : IsWord n "widths" ∨ IsWord n "offsets") (e : Expr) (es : List Expr)
    (he : ∀ as, e ≠ .list (.literal "csv".toList :: as)) (hc : .list (n :: e :: es) ∈ args)
    (hp : (s.env P).palette ≠ []) (c : BarsConf φ) : barsConfigure P s args ≠ .ok c := by
  refine (C90_bars P s hp args).1 ?_ c
  intro h
  obtain ⟨m, A, hA, hm, hargs⟩ := h _ hc
  have hA' : A = Does (AddLengths P) := by
    have hmem : m = "widths" ∨ m = "offsets" := by
      rcases hn with (rfl | rfl) | (rfl | rfl)
      · left; exact (String.toList_inj.1 (Option.some.inj hm)).symm
      · left; exact (String.toList_inj.1 (Option.some.inj hm)).symm
      · right; exact (String.toList_inj.1 (Option.some.inj hm)).symm
      · right; exact (String.toList_inj.1 (Option.some.inj hm)).symm
    rcases hmem with rfl | rfl <;> simpa [barsTakes, takesScales, takesLimits] using hA
  subst hA'
  obtain ⟨b, es', rest, vs, ns, h1, _⟩ := hargs []
  cases h1
  exact he _ rfl

/-! ## Instances -/

section Examples
variable (P : PlotEnv φ) (s : PlotState φ)

/-- Options every data element accepts. -/
def someOptions : List Expr := [.list [.literal "data".toList, .value "a.csv".toList], .list [.literal "data-x".toList],
  .list [.literal "data".toList, .value "b.csv".toList]]

theorem someOptions_ok : Acceptable (linesTakes P (s.env P)) someOptions := by
  intro c hc
  simp only [someOptions, List.mem_cons, List.not_mem_nil, or_false] at hc
  rcases hc with rfl | rfl | rfl
  · exact ⟨"data", Has IsText, by simp [linesTakes, takesData], rfl, _, _, .inr rfl⟩
  · exact ⟨"data-x", anything, by simp [linesTakes, takesData], rfl, trivial⟩
  · exact ⟨"data", Has IsText, by simp [linesTakes, takesData], rfl, _, _, .inr rfl⟩

/-- The last `data` counts. -/
example (hp : (s.env P).palette ≠ []) : ∃ o, LinesMeans P (s.env P) someOptions (linesDefault s) o ∧
    o.refs.path = "b.csv".toList ∧ o.stroke = (linesDefault s).stroke := by
  obtain ⟨o, ho, _⟩ := (C90_lines P s hp someOptions).2 (someOptions_ok P s)
  refine ⟨o, ho, ?_, ?_⟩
  · have h := ho.data.path
    unfold someOptions LastOf at h
    cases h with
    | skip h _ => exact absurd rfl (h ("data", _) (.head _))
    | act _ _ _ h =>
      cases h with
      | act hn hm _ _ => simp only [List.map_cons, List.map_nil, List.mem_singleton, Prod.mk.injEq] at hm; rw [hm.1] at hn; cases hn
      | skip _ h =>
        cases h with
        | skip h _ => exact absurd rfl (h ("data", _) (.head _))
        | act _ hm hr h =>
          cases h
          simp only [List.map_cons, List.map_nil, List.mem_singleton, Prod.mk.injEq] at hm
          rw [hm.2] at hr
          obtain ⟨rest, hr⟩ := hr
          rcases hr with hr | hr
          · simp only [argsOf, List.cons.injEq, reduceCtorEq, false_and] at hr
          · simp only [argsOf, List.cons.injEq, Expr.value.injEq] at hr
            exact hr.1.symm
  · have h := ho.stroke
    generalize o.stroke = w at h
    unfold someOptions at h
    have no : ∀ {n : String} {f : Effect StrokeState}, (n, f) ∈ [("color", Options.strokeColor (s.env P)),
        ("stroke-color", Options.strokeColor (s.env P)), ("stroke-width", Options.strokeWidth (s.env P)),
        ("stroke-style", Options.strokeStyle (s.env P))] → n ≠ "data" ∧ n ≠ "data-x" := by
      intro n f h
      simp only [List.mem_cons, Prod.mk.injEq, List.not_mem_nil, or_false] at h
      rcases h with ⟨rfl, _⟩ | ⟨rfl, _⟩ | ⟨rfl, _⟩ | ⟨rfl, _⟩ <;> simp
    cases h with
    | act hn hm _ _ => exact absurd (String.toList_inj.1 (Option.some.inj hn)).symm (no hm).1
    | skip _ h =>
      cases h with
      | act hn hm _ _ => exact absurd (String.toList_inj.1 (Option.some.inj hn)).symm (no hm).2
      | skip _ h =>
        cases h with
        | act hn hm _ _ => exact absurd (String.toList_inj.1 (Option.some.inj hn)).symm (no hm).1
        | skip _ h => cases h; rfl

/-- An unknown option. -/
example (hp : (s.env P).palette ≠ []) : ∃ f, linesCmd P [.list [.literal "colour".toList]] s = (s, some f) := by
  refine (C90_unknown P s hp _ _ (.head _)).1 ?_
  intro n A hA h
  have hn : "colour" = n := String.toList_inj.1 (Option.some.inj h)
  subst hn
  simp [linesTakes, takesData, takesScales, takesLimits] at hA

example (hp : (s.env P).palette ≠ []) (c : BarsConf φ) :
    barsConfigure P s [.list [.literal "widths".toList, .list [.literal "1px".toList]]] ≠ .ok c :=
  C90_inline_lengths P s _ (.literal "widths".toList) (.inl (.inl rfl)) _ [] (by intro as h; simp at h) (.head _) hp c

end Examples

end Clip
