import Verif.Model.HatchExport
import Verif.Props.HatchEnds
import Verif.Props.Svg
import Verif.Props.ElementPicturesEx
/-!
# C102: the export ends
-/
set_option linter.unusedSimpArgs false
namespace Clip
noncomputable section
open Settings PlotSpec DataSpec Pictures AxisSpec Elements

/-- The edges of a shape have a length. -/
def HasEdges (path : Path) : Prop := ∀ e ∈ polyEdges (pathToPolygon path), e.1 ≠ e.2

/-- The numbers of a drawing command that are written are below `2 ^ 29`. -/
def ModestCmd (c : DrawCmd) : Prop :=
  PathBelow (2 ^ 29) c.path ∧ (∀ f ∈ c.style.fillSolid, IntRange f.a) ∧ (∀ h ∈ c.style.fillHatch, IntRange h.color.a) ∧
  (∀ s ∈ c.style.strokeSolid, IntRange s.color.a ∧ IntRange s.width) ∧
  (∀ s ∈ c.style.strokeDash, IntRange s.color.a ∧ IntRange s.width ∧ IntRange s.offset ∧ ∀ x ∈ s.pattern, IntRange x)

theorem map_some_of {α : Type} (l : List (Option α)) (h : ∀ v ∈ l, ∃ q, v = some q) : ∃ r : List α, l = r.map some := by
  induction l with
  | nil => exact ⟨[], rfl⟩
  | cons a l ih =>
    obtain ⟨r, hr⟩ := ih fun v hv => h v (List.mem_cons_of_mem _ hv)
    obtain ⟨q, hq⟩ := h a (by simp)
    exact ⟨q :: r, by rw [hr, hq, List.map_cons]⟩

theorem map_map_some_of {α : Type} (l : List (List (Option α))) (h : ∀ v ∈ l, ∀ x ∈ v, ∃ q, x = some q) :
    ∃ r : List (List α), l = r.map (·.map some) := by
  induction l with
  | nil => exact ⟨[], rfl⟩
  | cons a l ih =>
    obtain ⟨r, hr⟩ := ih fun v hv => h v (List.mem_cons_of_mem _ hv)
    obtain ⟨q, hq⟩ := map_some_of a (h a (by simp))
    exact ⟨q :: r, by rw [hr, hq, List.map_cons]⟩

theorem polygon_below {path : Path} {B : ℝ} (h : PathBelow B path) :
    ∀ v ∈ pathToPolygon path, |v.x| < B ∧ |v.y| < B := by
  intro v hv
  rw [pathToPolygon, List.mem_filterMap] at hv
  obtain ⟨c, hc, hv⟩ := hv
  have := h c hc
  cases c <;> simp at hv <;> subst hv <;> simp [coords] at this ⊢ <;> tauto

theorem hatchPolygon_below {B : ℝ} : ∀ {vs : List Vec2}, (∀ v ∈ vs, |v.x| < B ∧ |v.y| < B) → PathBelow B (hatchPolygon vs) := by
  intro vs h c hc x hx
  cases vs with
  | nil => simp [hatchPolygon] at hc
  | cons v vs =>
    simp only [hatchPolygon, List.mem_cons, lineTos, List.mem_map] at hc
    rcases hc with rfl | ⟨w, hw, rfl⟩
    · have := h v (by simp)
      simp [coords] at hx
      rcases hx with rfl | rfl
      · exact this.1
      · exact this.2
    · have := h w (List.mem_cons_of_mem _ hw)
      simp [coords] at hx
      rcases hx with rfl | rfl
      · exact this.1
      · exact this.2

/-- The path of a hatched shape: it exists, and its numbers are about as large as those of the shape. -/
theorem hatchPath_exists {path : Path} (hp : PathBelow (2 ^ 29) path) (he : HasEdges path) (h : FillHatch) :
    ∃ p, HatchPath path h p ∧ PathBelow (2 ^ 30) p := by
  obtain ⟨r, hr, hv⟩ := C62_hatch_partial (pathToPolygon path) h.angle h.offset h.stride h.width he
  obtain ⟨q, rfl⟩ := map_map_some_of r fun v hv' x hx => by
    obtain ⟨p, hp, -⟩ := (hv v hv').2 x hx
    exact ⟨p, hp⟩
  refine ⟨_, ⟨q, hr, rfl⟩, ?_⟩
  intro c hc
  obtain ⟨vs, hvs, hc⟩ := List.mem_flatMap.1 hc
  refine hatchPolygon_below (fun v hvv => ?_) c hc
  obtain ⟨p, hpv, e, hee, -, hn⟩ := (hv (vs.map some) (List.mem_map_of_mem hvs)).2 (some v) (List.mem_map_of_mem hvv)
  cases Option.some.inj hpv
  obtain ⟨m1, m2⟩ := mem_polyEdges hee
  obtain ⟨a1, a2⟩ := polygon_below hp _ m1
  obtain ⟨a3, a4⟩ := polygon_below hp _ m2
  obtain ⟨b1, b2, b3, b4⟩ := hn
  rw [abs_lt] at a1 a2 a3 a4
  have c1 := lt_min a1.1 a3.1
  have c2 := max_lt a1.2 a3.2
  have c3 := lt_min a2.1 a4.1
  have c4 := max_lt a2.2 a4.2
  have e1 : (2 : ℝ) ^ 30 = 2 ^ 29 + 2 ^ 29 := by norm_num
  have e2 : (1 : ℝ) < 2 ^ 29 := by norm_num
  rw [e1]
  generalize (2 : ℝ) ^ 29 = B at *
  constructor <;> rw [abs_lt] <;> constructor <;> linarith

/-- C102: a picture with numbers of modest size can be exported: the export ends with a document, if no hatched shape has
edges of length zero. -/
theorem C102_export_partial (version : Str) (l : SvgLayer) (hw : |l.width| < 2 ^ 30) (hh : |l.height| < 2 ^ 30)
    (hb : |l.background.a| < 2 ^ 30) (hc : ∀ c ∈ l.cmds, ModestCmd c)
    (he : ∀ c ∈ l.cmds, c.style.fillHatch ≠ [] → HasEdges c.path) :
    (∃ out, ExportSvg version l out) ∧ ¬ ExportHangs l := by
  classical
  have hex : ∀ path h, ∃ p, (PathBelow (2 ^ 29) path → HasEdges path → HatchPath path h p ∧ PathBelow (2 ^ 30) p) := by
    intro path h
    by_cases hp : PathBelow (2 ^ 29) path ∧ HasEdges path
    · obtain ⟨p, hp⟩ := hatchPath_exists hp.1 hp.2 h
      exact ⟨p, fun _ _ => hp⟩
    · exact ⟨[], fun h1 h2 => absurd ⟨h1, h2⟩ hp⟩
  choose hatch hatchH using hex
  have key : ∀ c ∈ l.cmds, ∀ h ∈ c.style.fillHatch,
      HatchPath c.path h (hatch c.path h) ∧ PathBelow (2 ^ 30) (hatch c.path h) := fun c hcm h hm =>
    hatchH c.path h (hc c hcm).1 (he c hcm (List.ne_nil_of_mem hm))
  constructor
  · obtain ⟨out, ho⟩ := C34_defined version hatch l hw hh hb fun c hcm => by
      obtain ⟨h0, h1, h2, h3, h4⟩ := hc c hcm
      refine ⟨?_, h1, fun h hm => ⟨h2 h hm, (key c hcm h hm).2⟩, h3, h4⟩
      intro x hx y hy
      exact (h0 x hx y hy).trans (by norm_num)
    exact ⟨out, hatch, fun c hcm h hm => (key c hcm h hm).1, ho⟩
  · rintro ⟨c, hcm, h, hm, hs, hd⟩
    obtain ⟨r, hr, -⟩ := (key c hcm h hm).1
    rw [ShapeHatch, if_neg hs] at hr
    exact hd.not_returns hr

/-- The export gives at most one document, and it does not give one if it hangs. -/
theorem C102_unique (version : Str) (l : SvgLayer) (out out' : Str) (h : ExportSvg version l out)
    (h' : ExportSvg version l out') : out = out' ∧ ¬ ExportHangs l := by
  obtain ⟨f, hf, ho⟩ := h
  obtain ⟨g, hg, ho'⟩ := h'
  have hfun : ∀ p h a b, HatchPath p h a → HatchPath p h b → a = b := by
    rintro p h a b ⟨r, hr, rfl⟩ ⟨r', hr', rfl⟩
    have e : r.map (·.map some) = r'.map (·.map some) := by
      unfold ShapeHatch at hr hr'
      split at hr
      · rw [if_pos ‹_›] at hr'; rw [hr, hr']
      · rw [if_neg ‹_›] at hr'; exact hr.unique hr'
    have inj : Function.Injective (fun l : List Vec2 => l.map some) := List.map_injective_iff.2 (Option.some_injective _)
    rw [List.map_injective_iff.2 inj e]
  constructor
  · have e : l.cmds.mapM (svgAddPath f l.height) = l.cmds.mapM (svgAddPath g l.height) := by
      have : ∀ cs : List DrawCmd, (∀ c ∈ cs, ∀ h ∈ c.style.fillHatch, f c.path h = g c.path h) →
          cs.mapM (svgAddPath f l.height) = cs.mapM (svgAddPath g l.height) := by
        intro cs hcs
        induction cs with
        | nil => rfl
        | cons c cs ih =>
          have e1 : svgAddPath f l.height c = svgAddPath g l.height c := by
            have e2 : (c.style.fillHatch.mapM fun h => svgFillElem l.height (f c.path h) h.color c.crisp) =
                (c.style.fillHatch.mapM fun h => svgFillElem l.height (g c.path h) h.color c.crisp) := by
              have : ∀ hs : List FillHatch, (∀ h ∈ hs, f c.path h = g c.path h) →
                  (hs.mapM fun h => svgFillElem l.height (f c.path h) h.color c.crisp) =
                  (hs.mapM fun h => svgFillElem l.height (g c.path h) h.color c.crisp) := by
                intro hs hhs
                induction hs with
                | nil => rfl
                | cons h hs ih =>
                  rw [List.mapM_cons, List.mapM_cons, ih fun x hx => hhs x (List.mem_cons_of_mem _ hx), hhs h (by simp)]
              exact this _ (hcs c (by simp))
            unfold svgAddPath
            split
            · rfl
            · rw [e2]
          rw [List.mapM_cons, List.mapM_cons, ih fun x hx => hcs x (List.mem_cons_of_mem _ hx), e1]
      exact this _ fun c hc h hh => hfun _ _ _ _ (hf c hc h hh) (hg c hc h hh)
    have : exportSvg version f l = exportSvg version g l := by
      unfold exportSvg
      rw [e]
    rw [ho, ho'] at this
    exact Option.some.inj this
  · rintro ⟨c, hcm, h, hm, hs, hd⟩
    obtain ⟨r, hr, -⟩ := hf c hcm h hm
    rw [ShapeHatch, if_neg hs] at hr
    exact hd.not_returns hr

open Classical in
/-- C102: the export hangs exactly if a shape that is hatched, with a stride, has two edges of length zero. -/
theorem C102_hangs_iff (l : SvgLayer) : ExportHangs l ↔ ∃ c ∈ l.cmds, ∃ h ∈ c.style.fillHatch, h.stride ≠ 0 ∧
    2 ≤ ((polyEdges (pathToPolygon c.path)).filter fun e => decide (e.1 = e.2)).length := by
  unfold ExportHangs
  refine exists_congr fun c => and_congr_right fun _ => exists_congr fun h => and_congr_right fun _ => ⟨?_, ?_⟩
  · rintro ⟨hs, hd⟩
    refine ⟨hs, ?_⟩
    by_contra hc
    obtain ⟨r, hr⟩ := (C62_ends (pathToPolygon c.path) h.angle h.offset h.stride h.width).2 (Or.inr (by omega))
    rw [ShapeHatch, if_neg hs] at hr
    exact hd.not_returns hr
  · rintro ⟨hs, h2⟩
    exact C62_degenerate_diverges _ _ _ _ _ hs h2

/-- The polygon of a closed line through four points. -/
theorem polygon_ring4 (a b c d : Vec2) : pathToPolygon (ring [a, b, c, d]) = [a, b, c, d] := by
  simp [pathToPolygon, ring, polyline]

open Classical in
theorem two_points {a b c d : Vec2} (h : (a = b ∧ c = d) ∨ (b = c ∧ d = a)) :
    2 ≤ ((polyEdges [a, b, c, d]).filter fun e => decide (e.1 = e.2)).length := by
  have : polyEdges [a, b, c, d] = [(a, b), (b, c), (c, d), (d, a)] := rfl
  rw [this]
  rcases h with ⟨rfl, rfl⟩ | ⟨rfl, rfl⟩
  · by_cases h1 : a = c
    · simp [List.filter_cons, h1]
    · simp [List.filter_cons, h1, Ne.symm h1]
  · by_cases h1 : d = b
    · simp [List.filter_cons, h1]
    · simp [List.filter_cons, h1, Ne.symm h1]

/-- C102 (violated by the code): if the bars are hatched and the value of one of them is at the base line, then drawing them
succeeds and the picture can not be exported: the program hangs. -/
theorem C102_bar_hangs {φ : Type} (P : PlotEnv φ) (hT : LevelsOfChars P.text) (s s' : PlotState φ)
    (hp : s.layer.palette ≠ []) (args : List Expr) (h : barsCmd P args s = (s', none)) (c : BarsConf φ)
    (hc : barsConfigure P s args = .ok c) (hd : c.direction = .vertical) (color : Color) (angle offset stride width : ℝ)
    (hf : c.fill = ⟨some color, some (angle, offset, stride, width)⟩) (hs : stride ≠ 0) (u v : ℝ) (us vs : List ℝ)
    (hu : Positions P c.scales.x c.x us) (hv : Positions P c.scales.y c.y vs) (lows : List ℝ)
    (hl : Lows P c.scales.y c.yoffset us.length lows) (hm : (u, v, v) ∈ us.zip (vs.zip lows)) :
    ExportHangs s'.layer.svg := by
  obtain ⟨c', us', vs', lows', shapes, hc', hu', hv', -, -, hdir, rfl⟩ := (C94_bars P hT s s' hp args).1 h
  cases (Except.ok.inj (hc.symm.trans hc'))
  obtain rfl : us = us' := Except.ok.inj (((positions_iff _ _ _ _).2 hu).symm.trans ((positions_iff _ _ _ _).2 hu'))
  obtain rfl : vs = vs' := Except.ok.inj (((positions_iff _ _ _ _).2 hv).symm.trans ((positions_iff _ _ _ _).2 hv'))
  rcases hdir with ⟨-, hl', hpic⟩ | ⟨hh, -⟩
  swap
  · rw [hd] at hh; cases hh
  obtain rfl : lows = lows' := by
    obtain ⟨o1, z1, a1, b1, rfl⟩ := hl
    obtain ⟨o2, z2, a2, b2, rfl⟩ := hl'
    obtain rfl : o1 = o2 := Except.ok.inj (((positions_iff _ _ _ _).2 a1).symm.trans ((positions_iff _ _ _ _).2 a2))
    obtain ⟨y1, c1, rfl⟩ := (baseLine_iff _ _ _).1 b1
    obtain ⟨y2, c2, rfl⟩ := (baseLine_iff _ _ _).1 b2
    rw [c1] at c2
    rw [Except.ok.inj c2]
  unfold ColumnsPicture at hpic
  obtain ⟨pics, hfa, rfl⟩ := hpic
  obtain ⟨i, hi, hget⟩ := List.mem_iff_getElem.1 hm
  have hlen := hfa.length_eq
  have hi1 : i < pics.length := by
    rw [← hlen, List.length_append, List.length_mapIdx]; omega
  have hsh := hfa.get (i := i) (by rw [hlen]; exact hi1) hi1
  rw [List.get_eq_getElem, List.get_eq_getElem, List.getElem_append_left (by rw [List.length_mapIdx]; exact hi),
    List.getElem_mapIdx, hget] at hsh
  unfold Shape at hsh
  have hmem := List.getElem_mem hi1
  rw [hsh] at hmem
  refine ⟨_, List.mem_append_right _ (List.mem_flatten.2 ⟨_, hmem, List.mem_singleton.2 rfl⟩),
    ⟨color, angle, offset, stride, width⟩, ?_, ?_⟩
  · simp [styled, hf]
  · refine C62_degenerate_diverges _ _ _ _ _ hs ?_
    rw [vbar, polygon_ring4]
    exact two_points (Or.inl ⟨rfl, rfl⟩)

/-- `(bars (data-x (list 1 4)) (data-y (list 2 8)) (fill hatched))` -/
def exHatched : Expr := .list [.literal "bars".toList, exData "data-x" ["1", "4"], exData "data-y" ["2", "8"],
  .list [.literal "fill".toList, .literal "hatched".toList]]

def exHatchedConf (P : PlotEnv φ) (s : PlotState φ) : BarsConf φ := { exBarsConf s with
  fill := ⟨some .black, some (-45, 0, unitFromPt 3 (s.env P).size.dpi, unitFromPt 1 (s.env P).size.dpi)⟩ }

theorem exHatched_ok (P : PlotEnv φ) (s : PlotState φ) : barsConfigure P s (argsOf exHatched) = .ok (exHatchedConf P s) := by
  have hx : optTable (barsOpts P (s.env P)) "data-x".toList = some (onPart (·.x) (fun c v => { c with x := v })
      (loadSimple P.readFile)) := by
    simp [optTable, barsOpts, liftOpts, scaleOpts, limitOpts, List.find?]
  have hy : optTable (barsOpts P (s.env P)) "data-y".toList = some (onPart (·.y) (fun c v => { c with y := v })
      (loadSimple P.readFile)) := by
    simp [optTable, barsOpts, liftOpts, scaleOpts, limitOpts, List.find?]
  have hf : optTable (barsOpts P (s.env P)) "fill".toList = some (onPart (·.fill) (fun c v => { c with fill := v })
      (readFillStyle (s.env P))) := by
    simp [optTable, barsOpts, liftOpts, scaleOpts, limitOpts, List.find?]
  have hex : walkRead (optTable (barsOpts P (s.env P))) (argsOf exHatched) (barsDefault s) = (exHatchedConf P s, none) :=
    (walkRead_ok _ _ _ _).2 (.cons rfl hx rfl (.cons rfl hy rfl (.cons rfl hf rfl (.nil _))))
  unfold barsConfigure
  rw [hex]
  rfl

/-- It is drawn, and the export hangs at the first bar, which has the height 0: 2 is the lower limit. -/
example (P : PlotEnv φ) (hT : LevelsOfChars P.text) (L : Layer φ) (hp : L.palette ≠ []) (hdpi : L.size.dpi ≠ 0)
    (h1 : P.parse "1".toList = some 1) (h4 : P.parse "4".toList = some 4)
    (h2 : P.parse "2".toList = some 2) (h8 : P.parse "8".toList = some 8) :
    ∃ s', barsCmd P (argsOf exHatched) (exPlot L) = (s', none) ∧ ExportHangs s'.layer.svg := by
  obtain ⟨hx, hy⟩ := exPositions P L h1 h4 h2 h8
  have hz : BaseLine P (exPlot L).scales.y 0 := by
    rw [baseLine_iff]
    refine ⟨-1 / 3, ?_, ?_⟩
    · norm_num [translateZero, exPlot, scaleTranslate, translateLinear, scaleMin, scaleMax]
    · rw [clamp01_minmax]; norm_num
  have hl : Lows P (exPlot L).scales.y (exHatchedConf P (exPlot L)).yoffset 2 [0, 0] := ⟨[], 0, ⟨[], .nil, .nil⟩, hz, by simp⟩
  have hd : ∃ s', barsCmd P (argsOf exHatched) (exPlot L) = (s', none) := by
    have hpic : ∃ shapes, ColumnsPicture P.text (exPlot L) (exHatchedConf P (exPlot L)) [0, 1] [0, 1] [0, 0] shapes := by
      have e1 : (exHatchedConf P (exPlot L)).labels = [] := rfl
      unfold ColumnsPicture
      simp only [e1, List.zip_nil_left, List.mapIdx_nil, List.append_nil, List.zip_cons_cons, List.zip_nil_right,
        List.mapIdx_cons, List.mapIdx_nil, inOrder_cons, inOrder_nil]
      exact ⟨_, _, _, rfl, ⟨_, _, rfl, rfl, rfl⟩, rfl⟩
    obtain ⟨shapes, hpic⟩ := hpic
    exact ⟨_, (C94_bars P hT _ _ hp _).2 ⟨exHatchedConf P (exPlot L), [0, 1], [0, 1], [0, 0], shapes, exHatched_ok P _, hx, hy,
      rfl, by simp [exHatchedConf, exBarsConf, barsDefault], Or.inl ⟨rfl, hl, hpic⟩, rfl⟩⟩
  obtain ⟨s', hs'⟩ := hd
  refine ⟨s', hs', C102_bar_hangs P hT _ _ hp _ hs' _ (exHatched_ok P _) rfl _ _ _ _ _ rfl ?_ 0 0 [0, 1] [0, 1] hx hy [0, 0] hl
    (by simp)⟩
  have : ((exPlot L).env P).size.dpi = L.size.dpi := rfl
  rw [this]
  unfold unitFromPt
  positivity

/-- A hatched rectangle with an area is exported. -/
example : ∃ out, ExportSvg "1".toList ⟨100, 100, ⟨1, 1, 1, 1⟩,
    [⟨pathAddRect [] ⟨0, 0, 4, 3⟩, ⟨[], [⟨.black, -45, 0, 3, 1⟩], [], []⟩, false⟩]⟩ out := by
  refine (C102_export_partial _ _ (by norm_num [abs_lt]) (by norm_num [abs_lt]) (by norm_num [abs_lt]) ?_ ?_).1
  · intro c hc
    rw [List.mem_singleton] at hc
    subst hc
    refine ⟨?_, by simp, ?_, by simp, by simp⟩
    · intro c hc x hx
      simp [pathAddRect] at hc
      rcases hc with rfl | rfl | rfl | rfl | rfl <;> simp [coords] at hx
      · subst hx; norm_num
      · rcases hx with rfl | rfl <;> norm_num
      · rcases hx with rfl | rfl <;> norm_num
      · rcases hx with rfl | rfl <;> norm_num
    · simp [IntRange, Color.black]; norm_num
  · intro c hc _
    rw [List.mem_singleton] at hc
    subst hc
    have : polyEdges (pathToPolygon (pathAddRect [] ⟨0, 0, 4, 3⟩)) =
      [(⟨0, 0⟩, ⟨0, 0 + 3⟩), (⟨0, 0 + 3⟩, ⟨0 + 4, 0 + 3⟩), (⟨0 + 4, 0 + 3⟩, ⟨0 + 4, 0⟩), (⟨0 + 4, 0⟩, ⟨0, 0⟩)] := rfl
    unfold HasEdges
    rw [this]
    intro e he
    simp only [List.mem_cons, List.not_mem_nil, or_false] at he
    rcases he with rfl | rfl | rfl | rfl <;> simp

end
end Clip
