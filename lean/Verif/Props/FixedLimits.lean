import Verif.Lemmas.FixedLimits
import Verif.Props.Rearrange
/-!
# C106: plots whose limits are set
-/
namespace Clip
open Commands Settings Drawing Pictures PlotSpec AxisSpec DataSpec Elements Options LegendSpec Whole Rearrange
variable {φ : Type}

/-- C106: in a plot whose limits are set, leaving out an element takes away what it drew and changes nothing else. -/
theorem C106_leave_out (P : PlotEnv φ) (hT : LevelsOfChars P.text) (L : Layer φ) (hp : L.palette ≠ []) (A B : List Expr) (e : Expr)
    (hl : LimitsSet (A ++ B))
    (he : ∃ n ∈ ["polygons", "grid", "background", "legend", "axis", "areas", "bars", "errorbars", "labels", "lines", "points",
      "rectangles", "vectors"], nameOf e = some (String.toList n))
    (L' : Layer φ) (h : plotModule P (A ++ e :: B) L = (L', none)) :
    ∃ before shapes after, L' = draw L (before ++ shapes ++ after) ∧
      plotModule P (A ++ B) L = (draw L (before ++ after), none) := by
  obtain ⟨s, s', h1, h2, rfl⟩ := (C97_plot P hT _ L L' hp).1 h
  have hs : onPage (draw L []) s = s := onPage_self L s (Rearrange.first_layer P h1)
  have hl' : LimitsSet (A ++ e :: B) := by
    have sub : ∀ ns, Given ns (A ++ B) → Given ns (A ++ e :: B) := by
      rintro ns ⟨c, hc, h⟩
      refine ⟨c, ?_, h⟩
      simp only [List.mem_append, List.mem_cons] at hc ⊢
      tauto
    exact ⟨sub _ hl.1, sub _ hl.2.1, sub _ hl.2.2.1, sub _ hl.2.2.2⟩
  have hf := limits_set P hl' h1
  obtain ⟨s₁, f1, h1⟩ := reads_append.1 h1
  obtain ⟨s₂, f2, f3⟩ := reads_one.1 h1
  obtain ⟨kx, ky, rfl⟩ := first_elements P (cmds := [e]) (fun c hc => by rw [List.mem_singleton.1 hc]; exact he) f2
  obtain ⟨lx, ly, f4⟩ := first_hints P f3 s₁.scales.x.hints s₁.scales.y.hints
  rw [hintedP_self] at f4
  obtain ⟨t₁, g1, h2⟩ := reads_append.1 h2
  obtain ⟨t₂, g2, g3⟩ := reads_one.1 h2
  obtain ⟨hf1, g4⟩ := reads_hints P g1 hf
  obtain ⟨t, a, e1, -⟩ := reads_over P L hs.symm g1
  rw [List.nil_append] at e1
  subst e1
  obtain ⟨x, mx, my, rfl⟩ := second_element P L he g2
  obtain ⟨t', b, rfl, g5⟩ := reads_over P L rfl g3
  refine ⟨a, x, b, rfl, (C97_plot P hT _ L _ hp).2 ?_⟩
  obtain ⟨nx, ny, g6⟩ := g4 lx ly
  obtain ⟨ox, oy, g7⟩ := (reads_hints P (g5 a) hf1).2 nx ny
  exact ⟨_, _, reads_append.2 ⟨s₁, f1, f4⟩, reads_append.2 ⟨_, g6, g7⟩, rfl⟩

/-- C106: in a plot whose limits are set, elements do not influence each other: a plot with the elements `A` and then the
elements `B` shows what the plots with only `A` and with only `B` show. -/
theorem C106_combine (P : PlotEnv φ) (hT : LevelsOfChars P.text) (L : Layer φ) (hp : L.palette ≠ []) (D A B : List Expr)
    (hl : LimitsSet D)
    (he : ∀ e ∈ A ++ B, ∃ n ∈ ["polygons", "grid", "background", "legend", "axis", "areas", "bars", "errorbars", "labels",
      "lines", "points", "rectangles", "vectors"], nameOf e = some (String.toList n))
    (L₁ L₂ : Layer φ) (h₁ : plotModule P (D ++ A) L = (L₁, none)) (h₂ : plotModule P (D ++ B) L = (L₂, none)) :
    ∃ common a b, L₁ = draw L (common ++ a) ∧ L₂ = draw L (common ++ b) ∧
      plotModule P D L = (draw L common, none) ∧ plotModule P (D ++ A ++ B) L = (draw L (common ++ a ++ b), none) := by
  obtain ⟨s, s', h1, h2, rfl⟩ := (C97_plot P hT _ L _ hp).1 h₁
  obtain ⟨u, u', k1, k2, rfl⟩ := (C97_plot P hT _ L _ hp).1 h₂
  obtain ⟨s₀, f1, f2⟩ := reads_append.1 h1
  obtain ⟨u₀, f1', f3⟩ := reads_append.1 k1
  obtain rfl := first_det P L hp f1 f1'
  clear f1'
  have hf := limits_set P hl f1
  have hA : ∀ e ∈ A, Rearrange.Element e := fun e h => he e (List.mem_append_left _ h)
  have hB : ∀ e ∈ B, Rearrange.Element e := fun e h => he e (List.mem_append_right _ h)
  have hlay := Rearrange.first_layer P f1
  obtain ⟨ax, ay, rfl⟩ := first_elements P hA f2
  obtain ⟨bx, by_, rfl⟩ := first_elements P hB f3
  obtain ⟨cx, cy, f4⟩ := first_hints P f3 ax ay
  obtain ⟨t, g1, g2⟩ := reads_append.1 h2
  obtain ⟨v, g3, g4⟩ := reads_append.1 k2
  have hs : ∀ kx ky, onPage (draw L []) (hintedP kx ky s₀) = hintedP kx ky s₀ := fun kx ky => onPage_self L _ hlay
  obtain ⟨t₀, d, e1, -⟩ := reads_over P L (hs _ _).symm g1
  obtain ⟨v₀, d', e2, -⟩ := reads_over P L (hs _ _).symm g3
  rw [List.nil_append] at e1 e2
  subst e1 e2
  obtain ⟨ft, gt⟩ := reads_hints P g1 hf
  obtain ⟨fv, gv⟩ := reads_hints P g3 hf
  -- the common part, from the automatic limits that the settings give
  obtain ⟨px, py, g5⟩ := gt s₀.scales.x.hints s₀.scales.y.hints
  obtain ⟨qx, qy, g6⟩ := gv s₀.scales.x.hints s₀.scales.y.hints
  have hps : ((hintedP s₀.scales.x.hints s₀.scales.y.hints (hintedP ax ay s₀)) : PlotState φ).layer.palette ≠ [] := by
    rw [hintedP_self, hlay]; exact hp
  have e3 := second_det P hT hps g5 g6
  have ed : d = d' := by
    have := congrArg (fun s : PlotState φ => s.layer.drawlist) e3
    simpa [hintedP, Rearrange.onPage, draw] using this
  subst ed
  obtain ⟨a, lx, ly, rfl⟩ := second_elements P L hA g2
  obtain ⟨b, mx, my, rfl⟩ := second_elements P L hB g4
  refine ⟨d, a, b, rfl, rfl, (C97_plot P hT _ L _ hp).2 ⟨s₀, _, f1, g5, rfl⟩, (C97_plot P hT _ L _ hp).2 ?_⟩
  refine ⟨hintedP cx cy (hintedP bx by_ s₀), ?_⟩
  -- the common part and A with the automatic limits of all
  obtain ⟨px', py', g7⟩ := gt cx cy
  obtain ⟨fa, ga⟩ := reads_hints P g2 ft
  obtain ⟨nx, ny, g8⟩ := ga px' py'
  -- B from there
  obtain ⟨t', b', e4, g9⟩ := reads_over P L rfl g4
  have eb : b = b' := by
    have := congrArg (fun s : PlotState φ => s.layer.drawlist) e4
    simpa [hintedP, Rearrange.onPage, draw] using this
  subst eb
  obtain ⟨_, g10⟩ := reads_hints P (g9 (d ++ a)) fv
  obtain ⟨ox, oy, g11⟩ := g10 nx ny
  refine ⟨hintedP ox oy (Rearrange.onPage (draw L (d ++ a ++ b)) t'), reads_append.2 ⟨_, reads_append.2 ⟨_, f1, f2⟩, f4⟩,
    reads_append.2 ⟨_, reads_append.2 ⟨_, g7, g8⟩, ?_⟩, rfl⟩
  have e5 : (hintedP nx ny (onPage (draw L (d ++ a)) (hintedP lx ly t₀)) : PlotState φ) =
      hintedP nx ny (onPage (draw L (d ++ a)) v₀) := by
    have := congrArg (fun s : PlotState φ => hintedP nx ny (onPage (draw L (d ++ a)) s)) e3
    exact this
  rw [e5]
  exact g11

/-! ## A concrete case -/

/-- `(limit-x 1 4)` and `(limit-y 2 8)`. -/
def exLimits : List Expr := [.list [.literal "limit-x".toList, .literal "1".toList, .literal "4".toList],
  .list [.literal "limit-y".toList, .literal "2".toList, .literal "8".toList]]

/-- The plot with these limits. -/
def exSet (L : Layer φ) : PlotState φ :=
  { blank L with scales := ⟨{ min := some 1, max := some 4 }, { min := some 2, max := some 8 }⟩ }

/-- The same, with the line in it. -/
def exSet' (L : Layer φ) : PlotState φ := hintedP ⟨some 1, some 4⟩ ⟨some 2, some 8⟩ (exSet L)

noncomputable def exLine (L : Layer φ) : DrawCmd :=
  ⟨polyline [at_ (exSet L).clip 0 0, at_ (exSet L).clip 1 1], styled (exConf (exSet L)).stroke .default, false⟩

theorem exLine_drawn (P : PlotEnv φ) (hT : LevelsOfChars P.text) (L : Layer φ) (hp : L.palette ≠ [])
    (h1 : P.parse "1".toList = some 1) (h4 : P.parse "4".toList = some 4)
    (h2 : P.parse "2".toList = some 2) (h8 : P.parse "8".toList = some 8) :
    linesCmd P (argsOf exLines) (exSet' L) = (exSet' (draw L [exLine L]), none) := by
  have hx : Positions P (exSet' L).scales.x ⟨[(false, 0), (false, 1)], [], ["1".toList, "4".toList]⟩ [0, 1] :=
    (positions_iff _ _ _ _).1 (exTranslate P _ rfl _ _ 1 4 (by decide) (by decide) h1 h4 0 1
      (by norm_num [exSet', exSet, hintedP, hintedS, hinted, scaleTranslate, translateLinear, scaleMin, scaleMax])
      (by norm_num [exSet', exSet, hintedP, hintedS, hinted, scaleTranslate, translateLinear, scaleMin, scaleMax]))
  have hy : Positions P (exSet' L).scales.y ⟨[(false, 0), (false, 1)], [], ["2".toList, "8".toList]⟩ [0, 1] :=
    (positions_iff _ _ _ _).1 (exTranslate P _ rfl _ _ 2 8 (by decide) (by decide) h2 h8 0 1
      (by norm_num [exSet', exSet, hintedP, hintedS, hinted, scaleTranslate, translateLinear, scaleMin, scaleMax])
      (by norm_num [exSet', exSet, hintedP, hintedS, hinted, scaleTranslate, translateLinear, scaleMin, scaleMax]))
  refine (C94_lines P hT _ _ hp _).2 ⟨exConf (exSet' L), [0, 1], [0, 1], _, exLines_ok P _, hx, hy, rfl, ?_, ?_, ?_, rfl⟩
  · exact C42_every_point_once _ _ List.Pairwise.nil (by intro k hk; cases hk)
  · simp [exConf, linesDefault]
  · unfold LinesPicture
    have e1 : (exConf (exSet' L)).labels = [] := rfl
    have e2 : ¬ 0 < (exConf (exSet' L)).markerSize := lt_irrefl (0 : ℝ)
    have e3 : (exConf (exSet' L)).groups = [] := rfl
    simp only [e1, e2, e3, if_false, List.zip_nil_left, List.map_nil, List.append_nil]
    have e4 : pieces ([] : List Nat) ([0, 1].zip [0, 1] : List (ℝ × ℝ)) = [[(0, 0), (1, 1)]] := by
      simp [pieces]
    rw [e4, List.map_cons, List.map_nil, inOrder_one]
    rfl

theorem exLimits_set : LimitsSet exLimits :=
  ⟨⟨_, .head _, "limit-x", by simp, rfl⟩, ⟨_, .head _, "limit-x", by simp, rfl⟩,
    ⟨_, .tail _ (.head _), "limit-y", by simp, rfl⟩, ⟨_, .tail _ (.head _), "limit-y", by simp, rfl⟩⟩

theorem exFirst (P : PlotEnv φ) (L : Layer φ) (n : Nat)
    (r1 : P.stod "1".toList = some (1, n)) (r4 : P.stod "4".toList = some (4, n)) (r2 : P.stod "2".toList = some (2, n))
    (r8 : P.stod "8".toList = some (8, n)) : Reads (first P) exLimits (blank L) (exSet L) := by
  have num : ∀ (t : Str) (v : ℝ), P.stod t = some (v, n) → exprToFloat P.stod (.literal t) = .ok v := by
    intro t v h
    simp [exprToFloat, Expr.isValue, Expr.getValue, h]
  refine .step "limit-x" (onScaleX P scaleLimits) rfl (by simp [first]) rfl
    ⟨_, ⟨_, _, 1, 4, rfl, num _ _ r1, num _ _ r4, rfl⟩, rfl⟩ (.step "limit-y" (onScaleY P scaleLimits) rfl (by simp [first]) rfl
      ⟨_, ⟨_, _, 2, 8, rfl, num _ _ r2, num _ _ r8, rfl⟩, rfl⟩ ?_)
  exact .nil _

theorem exSkip (P : PlotEnv φ) (s : PlotState φ) : Reads (second P) exLimits s s := by
  have no : ∀ m : String, m ∉ (second P).map Prod.fst → ∀ e, nameOf e = some m.toList → ∀ p ∈ second P,
      nameOf e ≠ some (String.toList p.1) := by
    intro m hm e he p hp h
    exact hm (name_inj he h ▸ List.mem_map_of_mem hp)
  refine .skip rfl (no "limit-x" ?_ _ rfl) (.skip rfl (no "limit-y" ?_ _ rfl) (.nil _))
  all_goals simp [second]

theorem exSetLine (P : PlotEnv φ) (hT : LevelsOfChars P.text) (L : Layer φ) (hp : L.palette ≠ []) (n : Nat)
    (r1 : P.stod "1".toList = some (1, n)) (r4 : P.stod "4".toList = some (4, n)) (r2 : P.stod "2".toList = some (2, n))
    (r8 : P.stod "8".toList = some (8, n)) (h1 : P.parse "1".toList = some 1) (h4 : P.parse "4".toList = some 4)
    (h2 : P.parse "2".toList = some 2) (h8 : P.parse "8".toList = some 8) :
    plotModule P (exLimits ++ [exLines]) L = (draw L [exLine L], none) := by
  refine (C97_plot P hT _ L _ hp).2 ⟨exSet' L, exSet' (draw L [exLine L]), reads_append.2 ⟨_, exFirst P L n r1 r4 r2 r8, ?_⟩,
    reads_append.2 ⟨_, exSkip P _, ?_⟩, rfl⟩
  · refine .step "lines" (fits P SettledLines (fun c => [c.x]) fun c => [c.y]) rfl (by simp [first]) rfl
      ⟨exConf (exSet L), { min := some 1, max := some 4, hints := ⟨some 1, some 4⟩ },
        { min := some 2, max := some 8, hints := ⟨some 2, some 8⟩ },
        settled_of_ok (C93_lines P (exSet L) hp (argsOf exLines)) (exLines_ok P (exSet L)), ?_, ?_, rfl⟩ (.nil _)
    · exact ⟨[[1, 4]], ⟨some 1, some 4⟩, by
        refine .cons ⟨[.text "1".toList, .text "4".toList], ?_, ?_⟩ .nil
        · exact .cons (.inr ⟨rfl, _, rfl, rfl⟩) (.cons (.inr ⟨rfl, _, rfl, rfl⟩) .nil)
        · exact .cons (.inl ⟨by simp [exSet], .inr ⟨_, rfl, h1⟩⟩) (.cons (.inl ⟨by simp [exSet], .inr ⟨_, rfl, h4⟩⟩) .nil),
        best_pair 1 4 (by norm_num), rfl⟩
    · exact ⟨[[2, 8]], ⟨some 2, some 8⟩, by
        refine .cons ⟨[.text "2".toList, .text "8".toList], ?_, ?_⟩ .nil
        · exact .cons (.inr ⟨rfl, _, rfl, rfl⟩) (.cons (.inr ⟨rfl, _, rfl, rfl⟩) .nil)
        · exact .cons (.inl ⟨by simp [exSet], .inr ⟨_, rfl, h2⟩⟩) (.cons (.inl ⟨by simp [exSet], .inr ⟨_, rfl, h8⟩⟩) .nil),
        best_pair 2 8 (by norm_num), rfl⟩
  · exact .step "lines" (draws P LinesOf) rfl (by simp [second]) rfl
      ((C96_lines P hT (exSet' L) _ hp (argsOf exLines)).1 (exLine_drawn P hT L hp h1 h4 h2 h8)) (.nil _)

theorem exSetBackground (P : PlotEnv φ) (hT : LevelsOfChars P.text) (L : Layer φ) (hp : L.palette ≠ []) (n : Nat)
    (r1 : P.stod "1".toList = some (1, n)) (r4 : P.stod "4".toList = some (4, n)) (r2 : P.stod "2".toList = some (2, n))
    (r8 : P.stod "8".toList = some (8, n)) :
    ∃ back, plotModule P (exLimits ++ [exBackground]) L = (draw L [back], none) := by
  have hb : ∃ c, backgroundConfigure P (exSet L) [] = .ok c := ⟨_, rfl⟩
  obtain ⟨c, hc⟩ := hb
  have hb := (C94_background P (exSet L) _ []).2 ⟨c, _, hc, rfl, rfl⟩
  have no : ∀ p ∈ first P, nameOf exBackground ≠ some (String.toList p.1) := by
    intro p hp h
    have e : "background" = p.1 := name_inj rfl h
    have hm : "background" ∈ (first P).map Prod.fst := e ▸ List.mem_map_of_mem hp
    revert hm
    simp [first]
  exact ⟨_, (C97_plot P hT _ L _ hp).2 ⟨exSet L, _, reads_append.2 ⟨_, exFirst P L n r1 r4 r2 r8, .skip rfl no (.nil _)⟩,
    reads_append.2 ⟨_, exSkip P _, .step "background" (draws P BackgroundOf) rfl (by simp [second]) rfl
      ((C96_background P (exSet L) _ hp []).1 hb) (.nil _)⟩, rfl⟩⟩

/-- A background and a line in a plot with limits from 1 to 4 and from 2 to 8: together they are what they are alone. -/
example (P : PlotEnv φ) (hT : LevelsOfChars P.text) (L : Layer φ) (hp : L.palette ≠ []) (n : Nat)
    (r1 : P.stod "1".toList = some (1, n)) (r4 : P.stod "4".toList = some (4, n)) (r2 : P.stod "2".toList = some (2, n))
    (r8 : P.stod "8".toList = some (8, n)) (h1 : P.parse "1".toList = some 1) (h4 : P.parse "4".toList = some 4)
    (h2 : P.parse "2".toList = some 2) (h8 : P.parse "8".toList = some 8) :
    ∃ common a b, plotModule P (exLimits ++ [exBackground] ++ [exLines]) L = (draw L (common ++ a ++ b), none) ∧
      [exLine L] = common ++ b := by
  obtain ⟨back, hb⟩ := exSetBackground P hT L hp n r1 r4 r2 r8
  obtain ⟨d, a, b, -, e, -, h⟩ := C106_combine P hT L hp exLimits [exBackground] [exLines] exLimits_set
    (by
      intro e he
      simp only [List.cons_append, List.nil_append, List.mem_cons, List.not_mem_nil, or_false] at he
      rcases he with rfl | rfl
      · exact ⟨"background", by simp, rfl⟩
      · exact ⟨"lines", by simp, rfl⟩) _ _ hb (exSetLine P hT L hp n r1 r4 r2 r8 h1 h4 h2 h8)
  refine ⟨d, a, b, h, ?_⟩
  have := congrArg Layer.drawlist e
  simpa [draw] using this

/-- The line can be left out again. -/
example (P : PlotEnv φ) (hT : LevelsOfChars P.text) (L : Layer φ) (hp : L.palette ≠ []) (n : Nat)
    (r1 : P.stod "1".toList = some (1, n)) (r4 : P.stod "4".toList = some (4, n)) (r2 : P.stod "2".toList = some (2, n))
    (r8 : P.stod "8".toList = some (8, n)) (h1 : P.parse "1".toList = some 1) (h4 : P.parse "4".toList = some 4)
    (h2 : P.parse "2".toList = some 2) (h8 : P.parse "8".toList = some 8) :
    ∃ before after, plotModule P (exLimits ++ []) L = (draw L (before ++ after), none) := by
  obtain ⟨a, x, b, -, h⟩ := C106_leave_out P hT L hp exLimits [] exLines (by rw [List.append_nil]; exact exLimits_set)
    ⟨"lines", by simp, rfl⟩ _ (exSetLine P hT L hp n r1 r4 r2 r8 h1 h4 h2 h8)
  exact ⟨a, b, h⟩

end Clip
