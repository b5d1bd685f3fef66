import Verif.Model.Units
import Verif.Props.PlotElements
/-!
# Properties C26, C67, C68: dimensions
-/
set_option linter.unusedSimpArgs false
namespace Clip
noncomputable section

/-- C26: an inch is 25.4 mm, 72 pt and `dpi` device units, and conversion is proportional. -/
theorem C26_inch (dpi : ℝ) :
    unitFromMm 25.4 dpi = dpi ∧ unitFromPt 72 dpi = dpi ∧
    (∀ v, unitFromMm v dpi = v * unitFromMm 1 dpi) ∧ (∀ v, unitFromPt v dpi = v * unitFromPt 1 dpi) ∧
    (∀ v, unitFromMm v dpi = unitFromPt (v * 72 / 25.4) dpi) := by
  refine ⟨?_, ?_, ?_, ?_, ?_⟩ <;> intros <;> simp only [unitFromMm, unitFromPt] <;> ring

/-- C26: points to device units and back is the identity, in both directions. -/
theorem C26_points_invertible (dpi : ℝ) (h : dpi ≠ 0) (v : ℝ) :
    unitToPt (unitFromPt v dpi) dpi = v ∧ unitFromPt (unitToPt v dpi) dpi = v := by
  constructor <;> simp only [unitToPt, unitFromPt] <;> field_simp

example : (192 : ℝ) ≠ 0 := by norm_num

/-- C26: normalising twice is the same as normalising once, for every measure, even with different settings the
second time if the unit is one the code converts. -/
theorem C26_normalize_idempotent (c : MeasureConv) (m : Measure) :
    measureNormalize c (measureNormalize c m) = measureNormalize c m ∧
    (m.unit ∉ [MUnit.mm, .em, .percent] → (measureNormalize c m).unit = .unit ∧
      ∀ c', measureNormalize c' (measureNormalize c m) = measureNormalize c m) := by
  obtain ⟨u, v⟩ := m
  cases u <;> simp [measureNormalize]

/-- C26: the value of a normalised measure: points by resolution, `rem` by font size, relative values by the size
of the parent, everything else as it is. -/
theorem C26_normalize_values (dpi fs ps v : ℝ) :
    (measureNormalize ⟨dpi, ⟨.unit, fs⟩, ⟨.unit, ps⟩⟩ ⟨.pt, v⟩).value = v / 72 * dpi ∧
    (measureNormalize ⟨dpi, ⟨.unit, fs⟩, ⟨.unit, ps⟩⟩ ⟨.rem, v⟩).value = v * fs ∧
    (measureNormalize ⟨dpi, ⟨.pt, fs⟩, ⟨.unit, ps⟩⟩ ⟨.rem, v⟩).value = v * (fs / 72 * dpi) ∧
    (measureNormalize ⟨dpi, ⟨.rel, fs⟩, ⟨.unit, ps⟩⟩ ⟨.rem, v⟩).value = v * (ps * fs) ∧
    (measureNormalize ⟨dpi, ⟨.unit, fs⟩, ⟨.unit, ps⟩⟩ ⟨.rel, v⟩).value = v * ps ∧
    (measureNormalize ⟨dpi, ⟨.unit, fs⟩, ⟨.pt, ps⟩⟩ ⟨.rel, v⟩).value = v * (ps / 72 * dpi) ∧
    (measureNormalize ⟨dpi, ⟨.rel, fs⟩, ⟨.pt, ps⟩⟩ ⟨.rem, v⟩).value = v * (ps / 72 * dpi * fs) ∧
    (measureNormalize ⟨dpi, ⟨.unit, fs⟩, ⟨.unit, ps⟩⟩ ⟨.px, v⟩).value = v := by
  simp [measureNormalize, convFontSize, convParentSize, unitFromPt]

/-- C26 (violated by the code): millimetres are not normalised: the number stays as it is, so `10mm` is used as ten
device units although it is `10 / 25.4 * dpi`. -/
theorem C26_mm_not_normalized (c : MeasureConv) (v : ℝ) (hv : v ≠ 0) (hd : c.dpi ≠ 25.4) :
    measureNormalize c ⟨.mm, v⟩ = ⟨.mm, v⟩ ∧ (measureNormalize c ⟨.mm, v⟩).value ≠ v / 25.4 * c.dpi := by
  refine ⟨rfl, ?_⟩
  intro h
  simp only [measureNormalize, unitFromMm] at h
  apply hd
  have h2 : v * c.dpi = v * 25.4 := by
    have : v / 25.4 * c.dpi = v * c.dpi / 25.4 := by ring
    rw [this, eq_div_iff (by norm_num)] at h
    exact h.symm
  exact mul_left_cancel₀ hv h2

example : defaultLayer.dpi ≠ 25.4 := by norm_num [defaultLayer]

/-- C26: typographic conversion of a measure: mm and pt by resolution, `rem` by the font size in points or device
units; the result is in device units and further conversion does not change it. -/
theorem C26_typographic (dpi fs v : ℝ) (f g : Measure) :
    convertTypographic dpi f ⟨.mm, v⟩ = ⟨.unit, v / 25.4 * dpi⟩ ∧
    convertTypographic dpi f ⟨.pt, v⟩ = ⟨.unit, v / 72 * dpi⟩ ∧
    convertTypographic dpi ⟨.pt, fs⟩ ⟨.rem, v⟩ = ⟨.unit, v * (fs / 72 * dpi)⟩ ∧
    convertTypographic dpi ⟨.unit, fs⟩ ⟨.rem, v⟩ = ⟨.unit, v * fs⟩ ∧
    (∀ m, convertTypographic dpi g (convertTypographic dpi f m) = convertTypographic dpi f m) := by
  refine ⟨rfl, rfl, by simp [convertTypographic, unitFromPt], by simp [convertTypographic], ?_⟩
  rintro ⟨u, v⟩
  cases u <;> simp [convertTypographic]

/-- C26 (violated by the code): with a font size in millimetres, `rem` sizes are computed with the bare number. -/
theorem C26_mm_font_ignored (dpi fs v : ℝ) :
    convertTypographic dpi ⟨.mm, fs⟩ ⟨.rem, v⟩ = ⟨.unit, v * fs⟩ := by
  simp [convertTypographic]

/-- C26: user values converted by a scale and then relative to a range end up in device units. -/
theorem C26_user_chain (f : ℝ → ℝ) (range v : ℝ) :
    convertAll [convertUser f, convertRelative range] ⟨.user, v⟩ = ⟨.unit, f v * range⟩ := by
  simp [convertAll, convertUser, convertRelative]

/-- C26: sizes in millimetres, points and pixels give the figure that size. -/
theorem C26_layer_size (dpi v : ℝ) :
    layerSize ⟨.mm, v⟩ dpi = v / 25.4 * dpi ∧ layerSize ⟨.pt, v⟩ dpi = v / 72 * dpi ∧
    layerSize ⟨.px, v⟩ dpi = v := ⟨rfl, rfl, rfl⟩

/-- C26 (violated by the code): a figure size or font size that is a bare number, a percentage or in `em` is
accepted and the figure (or font) has size zero. -/
theorem C26_other_sizes_zero (stod : Str → Option (ℝ × Nat)) (s : Str) (v : ℝ) (pos : Nat)
    (h : stod s = some (v, pos))
    (hu : pos = s.length ∨ s.drop pos = ['%'] ∨ s.drop pos = ['e', 'm'] ∨ s.drop pos = ['r', 'e', 'm'])
    (l : LayerSize) :
    ∃ l', layerResizeCmd stod l [.literal s, .literal s] = .ok l' ∧ layerSize l'.width l'.dpi = 0 ∧
      layerSize l'.height l'.dpi = 0 := by
  have hm : ∃ m, parseMeasure stod s = .ok m ∧ ∀ dpi, layerSize m dpi = 0 := by
    unfold parseMeasure
    simp only [h]
    by_cases hp : pos = s.length
    · exact ⟨_, by simp [hp]; rfl, fun _ => rfl⟩
    · have hu' := hu.resolve_left hp
      simp only [hp, if_false]
      rcases hu' with e | e | e <;> simp only [e]
      · exact ⟨_, by simp; rfl, fun _ => rfl⟩
      · exact ⟨_, by simp; rfl, fun _ => rfl⟩
      · exact ⟨_, by simp; rfl, fun _ => rfl⟩
  obtain ⟨m, h1, h2⟩ := hm
  refine ⟨{ l with width := m, height := m }, ?_, h2 _, h2 _⟩
  simp [layerResizeCmd, Expr.isValue, Expr.getValue, h1]

example : ∃ stod : Str → Option (ℝ × Nat), stod ['5', '0', '%'] = some (50, 2) ∧
    (['5', '0', '%'] : Str).drop 2 = ['%'] := ⟨fun _ => some (50, 2), rfl, rfl⟩

/-- C67: the paper sizes: `A0` is 841 by 1189 mm, every further one is the previous halved across the longer side,
and the starred names are the landscape versions. -/
theorem C67_paper_sizes :
    paperSizes.lookup "A0".toList = some (841, 1189) ∧
    (∀ n < 6, ∃ w h, paperSizes.lookup ['A', Nat.digitChar n] = some (w, h) ∧
      paperSizes.lookup ['A', Nat.digitChar (n + 1)] = some (h / 2, w)) ∧
    (∀ n ≤ 6, ∃ w h, paperSizes.lookup ['A', Nat.digitChar n] = some (w, h) ∧
      paperSizes.lookup ['A', Nat.digitChar n, '*'] = some (h, w)) := by
  refine ⟨by decide, ?_, ?_⟩
  · intro n hn
    have : n = 0 ∨ n = 1 ∨ n = 2 ∨ n = 3 ∨ n = 4 ∨ n = 5 := by omega
    rcases this with rfl | rfl | rfl | rfl | rfl | rfl <;> exact ⟨_, _, by rfl, by decide⟩
  · intro n hn
    have : n = 0 ∨ n = 1 ∨ n = 2 ∨ n = 3 ∨ n = 4 ∨ n = 5 ∨ n = 6 := by omega
    rcases this with rfl | rfl | rfl | rfl | rfl | rfl | rfl <;> exact ⟨_, _, by rfl, by decide⟩

/-- C67: a paper name gives the figure that size, at its resolution; any other single name is refused and leaves
the figure unchanged (no figure is returned). -/
theorem C67_named_size (l : LayerSize) (name : Str) (stod : Str → Option (ℝ × Nat)) :
    (∀ w h, (name, w, h) ∈ paperSizes → ∃ l', layerResizeCmd stod l [.literal name] = .ok l' ∧
      layerSize l'.width l'.dpi = (w : ℝ) / 25.4 * l.dpi ∧ layerSize l'.height l'.dpi = (h : ℝ) / 25.4 * l.dpi) ∧
    (name ∉ paperSizes.map (·.1) → layerResizeCmd stod l [.literal name] = .error (.invalidSize name)) := by
  have hnd : (paperSizes.map (·.1)).Nodup := by decide
  have hlook : ∀ (t : List (Str × Nat × Nat)), (t.map (·.1)).Nodup →
      (∀ w h, (name, w, h) ∈ t → t.lookup name = some (w, h)) ∧ (name ∉ t.map (·.1) → t.lookup name = none) := by
    intro t
    induction t with
    | nil => intro _; simp
    | cons p t ih =>
      intro hn
      obtain ⟨k, a, b⟩ := p
      simp only [List.map_cons, List.nodup_cons] at hn
      have ih := ih hn.2
      constructor
      · intro w h hm
        rcases List.mem_cons.1 hm with e | hm
        · obtain ⟨rfl, rfl, rfl⟩ := by simpa using e
          simp [List.lookup_cons]
        · have : name ≠ k := by
            intro e
            exact hn.1 (List.mem_map.2 ⟨(name, w, h), hm, e⟩)
          have h2 : (name == k) = false := by simpa using this
          simp only [List.lookup_cons, h2]
          exact ih.1 w h hm
      · intro hm
        simp only [List.map_cons, List.mem_cons, not_or] at hm
        have h2 : (name == k) = false := by simpa using hm.1
        simp only [List.lookup_cons, h2]
        exact ih.2 hm.2
  constructor
  · intro w h hm
    refine ⟨_, by simp only [layerResizeCmd, layerResizeNamed, Expr.getValue, (hlook _ hnd).1 w h hm]; rfl, rfl, rfl⟩
  · intro hm
    simp only [layerResizeCmd, layerResizeNamed, Expr.getValue, (hlook _ hnd).2 hm]

example : (['A', '4'], 210, 297) ∈ paperSizes := by decide

/-- A text consisting of a number and a unit, as `stod` sees it. -/
def NumberWithUnit (stod : Str → Option (ℝ × Nat)) (n u : Str) (v : ℝ) : Prop :=
  stod (n ++ u) = some (v, n.length)

/-- C68: a size with a unit is converted: `mm` and `pt` by the resolution, `px` unchanged, `em` and `rem` by the
font size. -/
theorem C68_size_units (stod : Str → Option (ℝ × Nat)) (l : LayerSize) (n : Str) (v : ℝ) :
    (NumberWithUnit stod n ['m', 'm'] v →
      exprToNumber stod (uconvSize l) (.literal (n ++ ['m', 'm'])) = .ok (v / 25.4 * l.dpi)) ∧
    (NumberWithUnit stod n ['p', 't'] v →
      exprToNumber stod (uconvSize l) (.literal (n ++ ['p', 't'])) = .ok (v / 72 * l.dpi)) ∧
    (NumberWithUnit stod n ['p', 'x'] v → exprToNumber stod (uconvSize l) (.literal (n ++ ['p', 'x'])) = .ok v) ∧
    (NumberWithUnit stod n ['e', 'm'] v →
      exprToNumber stod (uconvSize l) (.literal (n ++ ['e', 'm'])) = .ok (layerSize l.fontSize l.dpi * v)) ∧
    (NumberWithUnit stod n ['r', 'e', 'm'] v →
      exprToNumber stod (uconvSize l) (.literal (n ++ ['r', 'e', 'm'])) = .ok (layerSize l.fontSize l.dpi * v)) := by
  refine ⟨?_, ?_, ?_, ?_, ?_⟩ <;> intro h <;> unfold NumberWithUnit at h <;>
    simp [exprToNumber, Expr.isValue, Expr.getValue, h, unitParse, uconvSize, unitFromMm, unitFromPt, unitFromPx,
      unitFromEm]

/-- C68: percentages are relative to the width for horizontal and to the height for vertical positions, and are
refused for sizes. -/
theorem C68_percent (stod : Str → Option (ℝ × Nat)) (l : LayerSize) (n : Str) (v : ℝ)
    (h : NumberWithUnit stod n ['%'] v) :
    exprToNumber stod (uconvWidth l) (.literal (n ++ ['%'])) = .ok (v / 100 * layerSize l.width l.dpi) ∧
    exprToNumber stod (uconvHeight l) (.literal (n ++ ['%'])) = .ok (v / 100 * layerSize l.height l.dpi) ∧
    exprToNumber stod (uconvSize l) (.literal (n ++ ['%'])) = .error (.invalidUnit ['%']) := by
  unfold NumberWithUnit at h
  refine ⟨?_, ?_, ?_⟩ <;>
    simp [exprToNumber, Expr.isValue, Expr.getValue, h, unitParse, uconvSize, uconvWidth, uconvHeight,
      unitFromPercent]

/-- C68: a size without unit is accepted exactly if it is zero; a text that does not begin with a number and a
number followed by anything but a known unit are refused; so is a list. -/
theorem C68_refused (stod : Str → Option (ℝ × Nat)) (conv : UnitConvMap) (s : Str) :
    (∀ v, stod s = some (v, s.length) →
      exprToNumber stod conv (.literal s) = if v = 0 then .ok 0 else .error .unitExpected) ∧
    (stod s = none → exprToNumber stod conv (.literal s) = .error .invalidNumber) ∧
    (∀ v pos, stod s = some (v, pos) → pos < s.length → unitParse (s.drop pos) = none →
      exprToNumber stod conv (.literal s) = .error (.invalidUnit (s.drop pos))) ∧
    (∀ es, exprToNumber stod conv (.list es) = .error .invalidNumber) := by
  refine ⟨?_, ?_, ?_, ?_⟩
  · intro v h; simp [exprToNumber, Expr.isValue, Expr.getValue, h]
  · intro h; simp [exprToNumber, Expr.isValue, Expr.getValue, h]
  · intro v pos h hp hu
    have : pos ≠ s.length := by omega
    simp [exprToNumber, Expr.isValue, Expr.getValue, h, this, hu]
  · intro es; simp [exprToNumber, Expr.isValue]

/-- C68: the known units. -/
theorem C68_units (s : Str) : unitParse s = none ↔
    s ∉ ["mm".toList, "px".toList, "pt".toList, "em".toList, "rem".toList, "%".toList] := by
  unfold unitParse
  simp only [show "mm".toList = ['m', 'm'] from rfl, show "px".toList = ['p', 'x'] from rfl,
    show "pt".toList = ['p', 't'] from rfl, show "em".toList = ['e', 'm'] from rfl,
    show "rem".toList = ['r', 'e', 'm'] from rfl, show "%".toList = ['%'] from rfl, List.mem_cons, List.not_mem_nil,
    or_false, not_or]
  repeat' split
  all_goals simp_all

example : NumberWithUnit (fun _ => some (1.5, 3)) ['1', '.', '5'] ['p', 't'] 1.5 := rfl

/-- C68: a size map maps 0 to its first size and 1 to its second, is linear in between, and values outside are
moved to the nearest end; texts that are no numbers are refused. -/
theorem C68_size_map (stod : Str → Option (ℝ × Nat)) (mn mx : Measure) (s : Str) :
    (stod s = none → measureMapLinear stod mn mx s = .error .invalidNumber) ∧
    (∀ v pos, stod s = some (v, pos) → ∃ m, measureMapLinear stod mn mx s = .ok m ∧
      (v ≤ 0 → m.value = mn.value) ∧ (1 ≤ v → m.value = mx.value) ∧
      (0 ≤ v → v ≤ 1 → m.value = (1 - v) * mn.value + v * mx.value) ∧
      (mn.value ≤ mx.value → mn.value ≤ m.value ∧ m.value ≤ mx.value)) := by
  constructor
  · intro h; simp [measureMapLinear, h]
  · intro v pos h
    have hc := clamp01_mem v
    refine ⟨_, by simp only [measureMapLinear, h]; rfl, ?_, ?_, ?_, ?_⟩
    · intro hv
      have : clamp01 v = 0 := by
        rcases hv.lt_or_eq with h | h
        · simp [clamp01, h]
        · rw [h]; simp [clamp01]
      simp [this]
    · intro hv
      have : clamp01 v = 1 := by
        rcases hv.lt_or_eq with h | h
        · simp [clamp01, h, not_lt.2 (by linarith : (0 : ℝ) ≤ v)]
        · rw [← h]; simp [clamp01]
      simp [this]
    · intro h0 h1
      simp only [hc.2.2 h0 h1]; ring
    · intro hle
      constructor
      · simp only; nlinarith [mul_nonneg (sub_nonneg.2 hle) hc.1]
      · simp only; nlinarith [mul_nonneg (sub_nonneg.2 hle) (sub_nonneg.2 hc.2.1)]

/-- C26: what a written measure means: a bare number is in user units, otherwise the unit written decides; `em` is the
same as `rem`, a percentage is a hundredth of the size of the parent; any other unit is refused. -/
theorem C26_parse (stod : Str → Option (ℝ × Nat)) (n u : Str) (v : ℝ) (h : NumberWithUnit stod n u v) :
    (u = [] → parseMeasure stod (n ++ u) = .ok ⟨.user, v⟩) ∧
    (u = ['m', 'm'] → parseMeasure stod (n ++ u) = .ok ⟨.mm, v⟩) ∧
    (u = ['p', 'x'] → parseMeasure stod (n ++ u) = .ok ⟨.px, v⟩) ∧
    (u = ['p', 't'] → parseMeasure stod (n ++ u) = .ok ⟨.pt, v⟩) ∧
    (u = ['e', 'm'] → parseMeasure stod (n ++ u) = .ok ⟨.rem, v⟩) ∧
    (u = ['r', 'e', 'm'] → parseMeasure stod (n ++ u) = .ok ⟨.rem, v⟩) ∧
    (u = ['%'] → parseMeasure stod (n ++ u) = .ok ⟨.rel, v / 100⟩) ∧
    (u = ['r', 'e', 'l'] → parseMeasure stod (n ++ u) = .ok ⟨.rel, v⟩) ∧
    (u ∉ [[], ['m', 'm'], ['p', 'x'], ['p', 't'], ['e', 'm'], ['r', 'e', 'm'], ['%'], ['r', 'e', 'l']] →
      parseMeasure stod (n ++ u) = .error (.invalidUnit u)) := by
  have hp : parseMeasure stod (n ++ u) = if u = [] then .ok ⟨.user, v⟩
      else if u = ['m', 'm'] then .ok ⟨.mm, v⟩
      else if u = ['p', 'x'] then .ok ⟨.px, v⟩
      else if u = ['p', 't'] then .ok ⟨.pt, v⟩
      else if u = ['e', 'm'] ∨ u = ['r', 'e', 'm'] then .ok ⟨.rem, v⟩
      else if u = ['%'] then .ok ⟨.rel, v / 100⟩
      else if u = ['r', 'e', 'l'] then .ok ⟨.rel, v⟩
      else .error (.invalidUnit u) := by
    unfold parseMeasure
    rw [show stod (n ++ u) = some (v, n.length) from h]
    have e1 : (n.length = (n ++ u).length) ↔ u = [] := by
      rw [List.length_append, ← List.length_eq_zero_iff]; omega
    simp only [e1, List.drop_left']
  rw [hp]
  refine ⟨?_, ?_, ?_, ?_, ?_, ?_, ?_, ?_, ?_⟩
  all_goals first
    | (rintro rfl; simp; done)
    | (intro hu
       simp only [List.mem_cons, List.not_mem_nil, or_false, not_or] at hu
       simp [hu])

/-- C26: text without a number is no measure. -/
theorem C26_parse_no_number (stod : Str → Option (ℝ × Nat)) (s : Str) (h : stod s = none) :
    parseMeasure stod s = .error .invalidNumber := by
  unfold parseMeasure; rw [h]

/-- C26: a measure of zero is replaced by the fallback, any other is kept. -/
theorem C26_measure_or (p f : Measure) : (p.value = 0 → measureOr p f = f) ∧ (p.value ≠ 0 → measureOr p f = p) :=
  ⟨fun h => if_pos h, fun h => if_neg h⟩

/-- C67: without a size command the figure is 1600 by 800 pixels, with 192 dpi and an 11 point font. -/
theorem C67_default : layerSize defaultLayer.width defaultLayer.dpi = 1600 ∧
    layerSize defaultLayer.height defaultLayer.dpi = 800 ∧ defaultLayer.dpi = 192 ∧
    layerSize defaultLayer.fontSize defaultLayer.dpi = 11 * (192 / 72) := by
  refine ⟨rfl, rfl, rfl, ?_⟩
  simp only [layerSize, defaultLayer, unitFromPt]; ring

/-- C67: a size command with two lengths sets width and height, in that order, and nothing else; with a length that
cannot be read, or any number of arguments but one or two, it is refused. -/
theorem C67_explicit_size (stod : Str → Option (ℝ × Nat)) (l : LayerSize) :
    (∀ a b w h, parseMeasure stod a = .ok w → parseMeasure stod b = .ok h →
      layerResizeCmd stod l [.literal a, .literal b] = .ok ⟨w, h, l.dpi, l.fontSize⟩) ∧
    (∀ a b e, parseMeasure stod a = .error e → layerResizeCmd stod l [.literal a, .literal b] = .error e) ∧
    (∀ a b w e, parseMeasure stod a = .ok w → parseMeasure stod b = .error e →
      layerResizeCmd stod l [.literal a, .literal b] = .error e) ∧
    (∀ args : List Expr, args.length ≠ 1 → args.length ≠ 2 → layerResizeCmd stod l args = .error .invalidNargs) := by
  refine ⟨?_, ?_, ?_, ?_⟩
  · intro a b w h h1 h2
    simp [layerResizeCmd, Expr.isValue, Expr.getValue, h1, h2]
  · intro a b e h1
    simp [layerResizeCmd, Expr.isValue, Expr.getValue, h1]
  · intro a b w e h1 h2
    simp [layerResizeCmd, Expr.isValue, Expr.getValue, h1, h2]
  · intro args h1 h2
    match args, h1, h2 with
    | [], _, _ => rfl
    | [_], h1, _ => exact absurd rfl h1
    | [_, _], _, h2 => exact absurd rfl h2
    | _ :: _ :: _ :: _, _, _ => rfl

end
end Clip
