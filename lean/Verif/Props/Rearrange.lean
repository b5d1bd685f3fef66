import Verif.Lemmas.Rearrange
import Verif.Props.WholePicture
/-!
# C105: rearranging the elements of a plot
-/
namespace Clip
open Commands Settings Drawing Pictures PlotSpec AxisSpec DataSpec Elements Options LegendSpec Whole Rearrange
variable {φ : Type}

/-- C105: two elements that stand next to each other in a plot can be exchanged.  What one of them draws does not depend on
the other one: only the order of the shapes on the page changes. -/
theorem C105_swap (P : PlotEnv φ) (hT : LevelsOfChars P.text) (L : Layer φ) (hp : L.palette ≠ []) (A B : List Expr) (e f : Expr)
    (he : ∃ n ∈ ["grid", "background", "legend", "axis", "areas", "bars", "errorbars", "labels", "lines", "points",
      "rectangles", "vectors"], nameOf e = some (String.toList n))
    (hf : ∃ n ∈ ["grid", "background", "legend", "axis", "areas", "bars", "errorbars", "labels", "lines", "points",
      "rectangles", "vectors"], nameOf f = some (String.toList n))
    (L' : Layer φ) (h : plotModule P (A ++ e :: f :: B) L = (L', none)) :
    ∃ before first second after, L' = draw L (before ++ first ++ second ++ after) ∧
      plotModule P (A ++ f :: e :: B) L = (draw L (before ++ second ++ first ++ after), none) := by
  obtain ⟨s, s', h1, h2, rfl⟩ := (C97_plot P hT _ L L' hp).1 h
  have hs : onPage (draw L []) s = s := onPage_self L s (Rearrange.first_layer P h1)
  rw [← hs] at h2
  obtain ⟨t, a, x, y, b, rfl, h3⟩ := second_swap P L he hf h2
  refine ⟨a, x, y, b, rfl, (C97_plot P hT _ L _ hp).2 ⟨s, _, ?_, hs ▸ h3, rfl⟩⟩
  obtain ⟨s₁, hA, hB⟩ := reads_append.1 h1
  exact reads_append.2 ⟨s₁, hA, first_swap P he hf hB⟩

/-- C105: in whatever order the elements of a plot are given, the same shapes are drawn. -/
theorem C105_order (P : PlotEnv φ) (hT : LevelsOfChars P.text) (L : Layer φ) (hp : L.palette ≠ []) (A B es es' : List Expr)
    (he : ∀ e ∈ es, ∃ n ∈ ["grid", "background", "legend", "axis", "areas", "bars", "errorbars", "labels", "lines", "points",
      "rectangles", "vectors"], nameOf e = some (String.toList n))
    (hes : es.Perm es') (L' : Layer φ) (h : plotModule P (A ++ es ++ B) L = (L', none)) :
    ∃ shapes shapes', shapes.Perm shapes' ∧ L' = draw L shapes ∧
      plotModule P (A ++ es' ++ B) L = (draw L shapes', none) := by
  obtain ⟨shapes, rfl⟩ := C97_adds P _ L L' ((C97_plot P hT _ L L' hp).1 h)
  induction hes generalizing A shapes with
  | nil => exact ⟨shapes, shapes, .refl _, rfl, h⟩
  | @cons e l l' _ ih =>
    have := ih (A ++ [e]) (fun e h => he e (.tail _ h)) shapes (by simpa using h)
    simpa using this
  | swap e f l =>
    have h' : plotModule P (A ++ f :: e :: (l ++ B)) L = (draw L shapes, none) := by simpa using h
    obtain ⟨a, x, y, b, e1, e2⟩ := C105_swap P hT L hp A (l ++ B) f e (he f (by simp)) (he e (by simp)) _ h'
    refine ⟨a ++ x ++ y ++ b, a ++ y ++ x ++ b, ?_, e1, by simpa using e2⟩
    refine List.Perm.append_right b ?_
    rw [List.append_assoc, List.append_assoc]
    exact List.Perm.append_left a List.perm_append_comm
  | @trans l l' l'' h1 _ ih1 ih2 =>
    obtain ⟨x, y, hxy, e1, e2⟩ := ih1 A he shapes h
    obtain ⟨y', z, hyz, e3, e4⟩ := ih2 A (fun e h => he e (h1.mem_iff.2 h)) y e2
    have : y = y' := by
      have := congrArg Layer.drawlist e3
      simpa [draw] using this
    subst this
    exact ⟨x, z, hxy.trans hyz, e1, e4⟩

/-- C105: leaving out a grid, a background, a legend or an axis takes away what it drew and changes nothing else. -/
theorem C105_leave_out (P : PlotEnv φ) (hT : LevelsOfChars P.text) (L : Layer φ) (hp : L.palette ≠ []) (A B : List Expr) (e : Expr)
    (he : ∃ n ∈ ["grid", "background", "legend", "axis"], nameOf e = some (String.toList n))
    (L' : Layer φ) (h : plotModule P (A ++ e :: B) L = (L', none)) :
    ∃ before shapes after, L' = draw L (before ++ shapes ++ after) ∧
      plotModule P (A ++ B) L = (draw L (before ++ after), none) := by
  obtain ⟨s, s', h1, h2, rfl⟩ := (C97_plot P hT _ L L' hp).1 h
  have hs : onPage (draw L []) s = s := onPage_self L s (Rearrange.first_layer P h1)
  rw [← hs] at h2
  obtain ⟨m, hm, hme⟩ := he
  have he' : Rearrange.Drawing e := by
    refine ⟨m, ?_, hme⟩
    simp only [List.mem_cons, List.not_mem_nil, or_false] at hm
    rcases hm with rfl | rfl | rfl | rfl <;> decide
  obtain ⟨t, a, x, b, rfl, h3⟩ := second_out P L he' h2
  refine ⟨a, x, b, rfl, (C97_plot P hT _ L _ hp).2 ⟨s, _, ?_, hs ▸ h3, rfl⟩⟩
  obtain ⟨s₁, hA, hB⟩ := reads_append.1 h1
  refine reads_append.2 ⟨s₁, hA, ?_⟩
  obtain ⟨s₂, h4, h5⟩ := reads_one.1 hB
  suffices s₂ = s₁ by rw [← this]; exact h5
  cases h4 with
  | skip _ _ h => cases h; rfl
  | step n f _ hn hne _ _ =>
    have e : n = m := name_inj hne hme
    subst e
    exfalso
    simp only [first, List.mem_cons, List.not_mem_nil, or_false, Prod.mk.injEq] at hn
    simp only [List.mem_cons, List.not_mem_nil, or_false] at hm
    rcases hm with rfl | rfl | rfl | rfl <;> revert hn <;> simp

/-! ## A concrete case -/

/-- `(background)` -/
def exBackground : Expr := .list [.literal "background".toList]

theorem exTwo (P : PlotEnv φ) (hT : LevelsOfChars P.text) (L : Layer φ) (hp : L.palette ≠ [])
    (h1 : P.parse "1".toList = some 1) (h4 : P.parse "4".toList = some 4)
    (h2 : P.parse "2".toList = some 2) (h8 : P.parse "8".toList = some 8) :
    ∃ back, plotModule P ([] ++ exLines :: exBackground :: []) L = (draw L [exShape L, back], none) := by
  obtain ⟨s, s', r1, r2, e⟩ := exPlotOf P hT L hp h1 h4 h2 h8
  have hb : ∃ c, backgroundConfigure P s' [] = .ok c := ⟨_, rfl⟩
  obtain ⟨c, hc⟩ := hb
  have hb := (C94_background P s' _ []).2 ⟨c, _, hc, rfl, rfl⟩
  have no : ∀ p ∈ first P, nameOf exBackground ≠ some (String.toList p.1) := by
    intro p hp h
    have e : "background" = p.1 := name_inj rfl h
    have hm : "background" ∈ (first P).map Prod.fst := e ▸ List.mem_map_of_mem hp
    revert hm
    simp [first]
  refine ⟨⟨area s'.clip, styled c.stroke c.fill, false⟩, (C97_plot P hT _ L _ hp).2 ⟨s,
    { s' with layer := draw s'.layer [⟨area s'.clip, styled c.stroke c.fill, false⟩] }, ?_, ?_, ?_⟩⟩
  · exact reads_append (A := [exLines]) |>.2 ⟨s, r1, .skip rfl no (.nil _)⟩
  · have hp' : s'.layer.palette ≠ [] := by rw [← e]; exact hp
    exact reads_append (A := [exLines]) |>.2 ⟨s', r2, .step "background" (draws P BackgroundOf) rfl (by simp [second]) rfl
      ((C96_background P s' _ hp' []).1 hb) (.nil _)⟩
  · rw [← e, draw_draw]
    rfl

/-- The line and the background of a plot can be exchanged: then the background does not cover the line. -/
example (P : PlotEnv φ) (hT : LevelsOfChars P.text) (L : Layer φ) (hp : L.palette ≠ [])
    (h1 : P.parse "1".toList = some 1) (h4 : P.parse "4".toList = some 4)
    (h2 : P.parse "2".toList = some 2) (h8 : P.parse "8".toList = some 8) :
    ∃ before first second after, plotModule P ([] ++ exBackground :: exLines :: []) L =
      (draw L (before ++ second ++ first ++ after), none) := by
  obtain ⟨back, h⟩ := exTwo P hT L hp h1 h4 h2 h8
  obtain ⟨a, x, y, b, -, e⟩ := C105_swap P hT L hp [] [] exLines exBackground ⟨"lines", by simp, rfl⟩
    ⟨"background", by simp, rfl⟩ _ h
  exact ⟨a, x, y, b, e⟩

/-- Without the background, the line is drawn alone. -/
example (P : PlotEnv φ) (hT : LevelsOfChars P.text) (L : Layer φ) (hp : L.palette ≠ [])
    (h1 : P.parse "1".toList = some 1) (h4 : P.parse "4".toList = some 4)
    (h2 : P.parse "2".toList = some 2) (h8 : P.parse "8".toList = some 8) :
    ∃ before after, plotModule P [exLines] L = (draw L (before ++ after), none) := by
  obtain ⟨back, h⟩ := exTwo P hT L hp h1 h4 h2 h8
  obtain ⟨a, x, b, -, e⟩ := C105_leave_out P hT L hp [exLines] [] exBackground ⟨"background", by simp, rfl⟩ _ h
  exact ⟨a, b, e⟩

end Clip
