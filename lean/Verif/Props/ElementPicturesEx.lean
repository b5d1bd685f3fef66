import Verif.Props.ElementPictures2
/-!
# Property C94: examples
-/
set_option linter.unusedSimpArgs false
set_option linter.unusedVariables false
namespace Clip
noncomputable section
open Settings PlotSpec DataSpec Pictures AxisSpec Elements

variable {φ : Type}

/-- A plot with the limits 1, 4 and 2, 8. -/
def exPlot (L : Layer φ) : PlotState φ :=
  { layer := L, scales := ⟨{ hints := ⟨some 1, some 4⟩ }, { hints := ⟨some 2, some 8⟩ }⟩ }

theorem exPositions (P : PlotEnv φ) (L : Layer φ) (h1 : P.parse "1".toList = some 1) (h4 : P.parse "4".toList = some 4)
    (h2 : P.parse "2".toList = some 2) (h8 : P.parse "8".toList = some 8) :
    Positions P (exPlot L).scales.x ⟨[(false, 0), (false, 1)], [], ["1".toList, "4".toList]⟩ [0, 1] ∧
    Positions P (exPlot L).scales.y ⟨[(false, 0), (false, 1)], [], ["2".toList, "8".toList]⟩ [0, 1] := by
  constructor
  · exact (positions_iff _ _ _ _).1 (exTranslate P _ rfl _ _ 1 4 (by decide) (by decide) h1 h4 0 1
      (by norm_num [exPlot, scaleTranslate, translateLinear, scaleMin, scaleMax])
      (by norm_num [exPlot, scaleTranslate, translateLinear, scaleMin, scaleMax]))
  · exact (positions_iff _ _ _ _).1 (exTranslate P _ rfl _ _ 2 8 (by decide) (by decide) h2 h8 0 1
      (by norm_num [exPlot, scaleTranslate, translateLinear, scaleMin, scaleMax])
      (by norm_num [exPlot, scaleTranslate, translateLinear, scaleMin, scaleMax]))

/-- `(lines (data-x (list 1 4)) (data-y (list 2 8)))` draws one line, from corner to corner of the plot, and nothing else. -/
theorem exLines_drawn (P : PlotEnv φ) (hT : LevelsOfChars P.text) (L : Layer φ) (hp : L.palette ≠ [])
    (h1 : P.parse "1".toList = some 1) (h4 : P.parse "4".toList = some 4)
    (h2 : P.parse "2".toList = some 2) (h8 : P.parse "8".toList = some 8) :
    linesCmd P (argsOf exLines) (exPlot L) = (exPlot (draw L
      [⟨polyline [at_ (exPlot L).clip 0 0, at_ (exPlot L).clip 1 1], styled (exConf (exPlot L)).stroke .default, false⟩]),
      none) := by
  obtain ⟨hx, hy⟩ := exPositions P L h1 h4 h2 h8
  refine (C94_lines P hT _ _ hp _).2 ⟨exConf (exPlot L), [0, 1], [0, 1], _, exLines_ok P _, hx, hy, rfl, ?_, ?_, ?_, rfl⟩
  · exact C42_every_point_once _ _ List.Pairwise.nil (by intro k hk; cases hk)
  · simp [exConf, linesDefault]
  · unfold LinesPicture
    have e1 : (exConf (exPlot L)).labels = [] := rfl
    have e2 : ¬ 0 < (exConf (exPlot L)).markerSize := lt_irrefl (0 : ℝ)
    have e3 : (exConf (exPlot L)).groups = [] := rfl
    simp only [e1, e2, e3, if_false, List.zip_nil_left, List.map_nil, List.append_nil]
    have e4 : pieces ([] : List Nat) ([0, 1].zip [0, 1] : List (ℝ × ℝ)) = [[(0, 0), (1, 1)]] := by
      simp [pieces]
    rw [e4, List.map_cons, List.map_nil, inOrder_one]
    rfl

/-- `(bars (data-x (list 1 4)) (data-y (list 2 8)))` -/
def exBars : Expr := .list [.literal "bars".toList, exData "data-x" ["1", "4"], exData "data-y" ["2", "8"]]

def exBarsConf (s : PlotState φ) : BarsConf φ := { barsDefault s with
  x := ⟨[(false, 0), (false, 1)], [], ["1".toList, "4".toList]⟩
  y := ⟨[(false, 0), (false, 1)], [], ["2".toList, "8".toList]⟩ }

theorem exBars_ok (P : PlotEnv φ) (s : PlotState φ) : barsConfigure P s (argsOf exBars) = .ok (exBarsConf s) := by
  have hx : optTable (barsOpts P (s.env P)) "data-x".toList = some (onPart (·.x) (fun c v => { c with x := v })
      (loadSimple P.readFile)) := by
    simp [optTable, barsOpts, liftOpts, scaleOpts, limitOpts, List.find?]
  have hy : optTable (barsOpts P (s.env P)) "data-y".toList = some (onPart (·.y) (fun c v => { c with y := v })
      (loadSimple P.readFile)) := by
    simp [optTable, barsOpts, liftOpts, scaleOpts, limitOpts, List.find?]
  have hex : walkRead (optTable (barsOpts P (s.env P))) (argsOf exBars) (barsDefault s) = (exBarsConf s, none) :=
    (walkRead_ok _ _ _ _).2 (.cons rfl hx rfl (.cons rfl hy rfl (.nil _)))
  unfold barsConfigure
  rw [hex]
  rfl

/-- It draws two bars from the lower edge of the plot, the first of the height 0: 2 is the lower limit, and 0 is below it. -/
example (P : PlotEnv φ) (hT : LevelsOfChars P.text) (L : Layer φ) (hp : L.palette ≠ [])
    (h1 : P.parse "1".toList = some 1) (h4 : P.parse "4".toList = some 4)
    (h2 : P.parse "2".toList = some 2) (h8 : P.parse "8".toList = some 8) :
    let clip := (exPlot L).clip
    let w := 10 / 72 * L.size.dpi
    barsCmd P (argsOf exBars) (exPlot L) = (exPlot (draw L
      [⟨ring (vbar clip.x w clip.y clip.y), ⟨[.black], [], [], []⟩, false⟩,
       ⟨ring (vbar (clip.x + clip.w) w clip.y (clip.y + clip.h)), ⟨[.black], [], [], []⟩, false⟩]), none) := by
  intro clip w
  obtain ⟨hx, hy⟩ := exPositions P L h1 h4 h2 h8
  have hz : BaseLine P (exPlot L).scales.y 0 := by
    rw [baseLine_iff]
    refine ⟨-1 / 3, ?_, ?_⟩
    · norm_num [translateZero, exPlot, scaleTranslate, translateLinear, scaleMin, scaleMax]
    · rw [clamp01_minmax]; norm_num
  refine (C94_bars P hT _ _ hp _).2 ⟨exBarsConf (exPlot L), [0, 1], [0, 1], [0, 0], _, exBars_ok P _, hx, hy, rfl, ?_,
    Or.inl ⟨rfl, ⟨[], 0, ?_, hz, by simp⟩, ?_⟩, rfl⟩
  · simp [exBarsConf, barsDefault]
  · exact ⟨[], .nil, .nil⟩
  · have e1 : (exBarsConf (exPlot L)).labels = [] := rfl
    unfold ColumnsPicture
    simp only [e1, List.zip_nil_left, List.mapIdx_nil, List.append_nil, List.zip_cons_cons, List.zip_nil_right,
      List.mapIdx_cons, List.mapIdx_nil, inOrder_cons, inOrder_nil]
    refine ⟨_, _, rfl, ⟨_, _, rfl, rfl, rfl⟩, ?_⟩
    have e2 : styled (exBarsConf (exPlot L)).stroke (exBarsConf (exPlot L)).fill = ⟨[.black], [], [], []⟩ := styled_fill _
    have e3 : (exBarsConf (exPlot L)).sizes = [] := rfl
    have e4 : (exBarsConf (exPlot L)).offsets = [] := rfl
    have e5 : (exBarsConf (exPlot L)).size = 0 := rfl
    have e6 : (exBarsConf (exPlot L)).offset = 0 := rfl
    simp [e2, e3, e4, e5, e6, nth, lengthOr, at_, clip, w]
    exact ⟨rfl, rfl⟩

end
end Clip
