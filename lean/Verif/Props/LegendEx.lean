import Verif.Props.LegendBoxes
import Verif.Props.ElementPicturesEx
/-!
# Property C95: examples
-/
set_option linter.unusedSimpArgs false
namespace Clip
noncomputable section
open Settings PlotSpec Pictures AxisSpec Elements LegendSpec
variable {φ : Type}

/-- Three items: two of them in the first row, both as high as the higher one. -/
example : flowLayout 5 10 70 [(30, 10), (30, 12), (50, 10)] =
    ([⟨0, 0, 30, 12⟩, ⟨40, 0, 30, 12⟩, ⟨0, 17, 50, 10⟩], 70, 27) := by
  norm_num [flowLayout, flowStep, List.foldl]

/-- The same items one below the other. -/
example : rowsLayout 5 [(30, 10), (30, 12), (50, 10)] 0 0 =
    ([⟨0, 0, 30, 10⟩, ⟨0, 15, 30, 12⟩, ⟨0, 32, 50, 10⟩], 50, 42) := by
  norm_num [rowsLayout]

/-- An item wider than the legend, and one after it. -/
example : flowLayout 5 10 40 [(50, 10), (30, 12)] = ([⟨0, 5, 50, 10⟩, ⟨0, 20, 30, 12⟩], 50, 32) := by
  norm_num [flowLayout, flowStep, List.foldl]

/-- `(legend (item (label "a")))` -/
def exLegend : Expr := .list [.literal "legend".toList,
  .list [.literal "item".toList, .list [.literal "label".toList, .literal "a".toList]]]

def exItem (s : PlotState φ) : LegendItem φ := { legendItemDefault s with label := "a".toList }

theorem exLegend_ok (P : PlotEnv φ) (s : PlotState φ) :
    legendConfigure P s (argsOf exLegend) = .ok { legendDefault s with items := [exItem s] } := by
  have h1 : optTable (legendItemOpts P (s.env P)) "label".toList =
      some (field (fun args _ => readString args) fun c v => { c with label := v }) := by
    simp [optTable, legendItemOpts, List.find?]
  have h2 : optTable (legendOpts P s) "item".toList = some (legendItemAdd P s) := by
    simp [optTable, legendOpts, List.find?]
  have h3 : legendItemConfigure P s [.list [.literal "label".toList, .literal "a".toList]] = .ok (exItem s) := by
    have : walkRead (optTable (legendItemOpts P (s.env P))) [.list [.literal "label".toList, .literal "a".toList]]
        (legendItemDefault s) = (exItem s, none) := (walkRead_ok _ _ _ _).2 (.cons rfl h1 rfl (.nil _))
    unfold legendItemConfigure
    rw [this]
  have h4 : legendItemAdd P s [.list [.literal "label".toList, .literal "a".toList]] (legendDefault s) =
      ({ legendDefault s with items := [exItem s] }, none) := by
    unfold legendItemAdd field
    simp only [h3]
    rfl
  have h5 : walkRead (optTable (legendOpts P s)) (argsOf exLegend) (legendDefault s) =
      ({ legendDefault s with items := [exItem s] }, none) := (walkRead_ok _ _ _ _).2 (.cons rfl h2 h4 (.nil _))
  unfold legendConfigure
  rw [h5]

/-- It draws the label and a disk, if the label is a text of the size 20 by 10, and if the plot is large enough: at the left
of the upper left corner, 6 below and 16 beside it (with the font size 10). -/
example (P : PlotEnv φ) (hT : LevelsOfChars P.text) (s : PlotState φ) (hf : s.fontSize = 10) (hclip : s.clip = ⟨0, 0, 200, 100⟩)
    (label : List DrawCmd) (he : Extents P.text s.layer.fonts 10 s.layer.size.dpi "a".toList 20 10)
    (hl : TextShapes P.text s.layer.fonts 10 s.layer.size.dpi "a".toList ⟨27, 83⟩ .left .center ⟨[.black], [], [], []⟩ label)
    (disk : Path) (hd : markerDraw .disk ⟨17.5, 83⟩ 7.5 = .filled disk) :
    legendCmd P (argsOf exLegend) s =
      ({ s with layer := draw s.layer (label ++ [⟨disk, ⟨[.black], [], [], []⟩, false⟩]) }, none) := by
  refine (C95_legend P hT s _ _).2 ⟨_, _, exLegend_ok P s, ?_, rfl⟩
  unfold LegendPicture
  have hm : (legendDefault s).margins = (6, 6, 6, 6) := by
    simp only [legendDefault, hf, unitFromEm]; norm_num
  have hpd : (legendDefault s).padding = (6, 10, 6, 10) := by
    simp only [legendDefault, hf, unitFromEm]; norm_num
  have hb : (legendDefault s).background = none := rfl
  have hbo : (legendDefault s).borders = (.default, .default, .default, .default) := rfl
  have hfl : (legendDefault s).flow = false := rfl
  have hho : (legendDefault s).horiz = .left := rfl
  have hve : (legendDefault s).vert = .top := rfl
  have i1 : (exItem s).labelMargin = 11 := by simp only [exItem, legendItemDefault, hf, unitFromEm]; norm_num
  have i2 : (exItem s).markerMargin = 1.5 := by simp only [exItem, legendItemDefault, hf, unitFromEm]; norm_num
  have i3 : (exItem s).markerSize = 7.5 := by simp only [exItem, legendItemDefault, hf]; norm_num
  have i4 : (exItem s).labelFontSize = 10 := hf
  have i5 : (exItem s).labelFonts = s.layer.fonts := rfl
  refine ⟨[(31, 10)], [⟨0, 0, 31, 10⟩], 31, 10, .cons ⟨20, 10, ?_, ?_⟩ .nil, .inl ⟨hfl, ?_⟩, ?_⟩
  · rw [i4, i5]; exact he
  · rw [i1]; norm_num
  · refine ⟨?_, ?_, ?_⟩
    · simp [LegendSpec.next, runLength]
    · norm_num [greatest]
    · norm_num [runLength]
  · simp only [hm, hpd, hb, hbo, hho, hve, hclip, List.nil_append, List.zip_cons_cons, List.zip_nil_right, List.map_cons,
      List.map_nil, List.cons_append, inOrder_cons, inOrder_nil]
    have hbd : ∀ p q, Border StrokeState.default p q [] := by
      intro p q
      simp [Border, StrokeState.default]
    refine ⟨[], _, hbd _ _, ⟨[], _, hbd _ _, ⟨[], _, hbd _ _, ⟨[], _, hbd _ _, ⟨_, [], ?_, rfl, (List.append_nil _).symm⟩, rfl⟩,
      rfl⟩, rfl⟩, rfl⟩
    unfold ItemPicture
    rw [inOrder_cons]
    refine ⟨label, _, ⟨?_, ?_⟩, (inOrder_one _ _).2 ?_, rfl⟩
    · show ("a".toList : Str) ≠ []
      decide
    · have e : sidePoint (onPage (inset (placed .left .top (inset ⟨0, 0, 200, 100⟩ 6 6 6 6) (31 + (10 + 10)) (10 + (6 + 6)))
          6 10 6 10) ⟨0, 0, 31, 10⟩) .left 11 = ⟨27, 83⟩ := by
        norm_num [sidePoint, onPage, inset, placed, right, at_]
      rw [i1, i4, i5]
      show TextShapes _ _ _ _ _ (sidePoint _ .left 11) _ _ _ _
      rw [e]
      exact hl
    · have e : sidePoint (onPage (inset (placed .left .top (inset ⟨0, 0, 200, 100⟩ 6 6 6 6) (31 + (10 + 10)) (10 + (6 + 6)))
          6 10 6 10) ⟨0, 0, 31, 10⟩) .left 1.5 = ⟨17.5, 83⟩ := by
        norm_num [sidePoint, onPage, inset, placed, right, at_]
      rw [i2, i3]
      show MarkerAt _ _ _ .disk (sidePoint _ .left 1.5) 7.5 .black _
      rw [e]
      unfold MarkerAt
      rw [hd]
      rfl

end
end Clip
