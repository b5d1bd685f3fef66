import Verif.Props.StyleOld
import Verif.Spec.Pictures
set_option linter.unusedSimpArgs false
/-! Property theorems C81 (rectangles), C82 (text elements). -/
namespace Clip
open Commands Settings Drawing Pictures
section
variable {E : ReadEnv}

theorem onPart_ok {σ α : Type} {get : σ → α} {put : σ → α → σ} {h : Handler α Fail} {args : List Expr} {s s₁ : σ} :
    onPart get put h args s = (s₁, none) ↔ ∃ v, h args (get s) = (v, none) ∧ s₁ = put s v := by
  unfold onPart
  cases hh : h args (get s) with
  | mk v o => cases o <;> simp [eq_comm]

theorem both_empty (f : Compound) : both ⟨[], [], [], []⟩ f = f := by cases f; rfl
theorem both_empty' (f : Compound) : both f ⟨[], [], [], []⟩ = f := by cases f; simp [both]
theorem both_assoc (a b c : Compound) : both (both a b) c = both a (both b c) := by simp [both]

theorem FillMeans.unique (hp : E.palette ≠ []) {args : List Expr} {f g : Compound} (hf : FillMeans E args f)
    (hg : FillMeans E args g) : f = g := by
  have h1 := (C78_fill E hp args ⟨[], [], [], []⟩ f).2 ⟨f, hf, (both_empty f).symm⟩
  have h2 := (C78_fill E hp args ⟨[], [], [], []⟩ g).2 ⟨g, hg, (both_empty g).symm⟩
  rw [h1] at h2; cases h2; rfl

/-- `solid` and `dash` are no numbers. -/
def NoNumbers (E : ReadEnv) : Prop := E.stod "solid".toList = none ∧ E.stod "dash".toList = none

theorem StrokeMeans.unique (hp : E.palette ≠ []) (hn : NoNumbers E) {args : List Expr} {f g : Compound}
    (hf : StrokeMeans E args f) (hg : StrokeMeans E args g) : f = g := by
  have h1 := (C78_stroke E hp hn args ⟨[], [], [], []⟩ f).2 ⟨f, hf, (both_empty f).symm⟩
  have h2 := (C78_stroke E hp hn args ⟨[], [], [], []⟩ g).2 ⟨g, hg, (both_empty g).symm⟩
  rw [h1] at h2; cases h2; rfl

theorem StyleMeans.unique (hp : E.palette ≠ []) (hn : NoNumbers E) {cmds : List Expr} {f g : Compound}
    (hf : StyleMeans E cmds f) (hg : StyleMeans E cmds g) : f = g := by
  have d1 : "color".toList ≠ "fill".toList := by decide
  have d2 : "color".toList ≠ "stroke".toList := by decide
  have d3 : "fill".toList ≠ "stroke".toList := by decide
  induction hf generalizing g with
  | nil => cases hg; rfl
  | color h1 h2 _ ih =>
    cases hg with
    | color g1 g2 g3 => rw [IsColor.unique hp h2 g2, ih g3]
    | fill g1 _ _ => rw [h1] at g1; exact absurd (Option.some.inj g1) d1
    | stroke g1 _ _ => rw [h1] at g1; exact absurd (Option.some.inj g1) d2
    | other g1 _ _ _ => exact absurd h1 g1
  | fill h1 h2 _ ih =>
    cases hg with
    | color g1 g2 g3 => rw [h1] at g1; exact absurd (Option.some.inj g1).symm d1
    | fill g1 g2 g3 => rw [FillMeans.unique hp h2 g2, ih g3]
    | stroke g1 _ _ => rw [h1] at g1; exact absurd (Option.some.inj g1) d3
    | other _ g1 _ _ => exact absurd h1 g1
  | stroke h1 h2 _ ih =>
    cases hg with
    | color g1 g2 g3 => rw [h1] at g1; exact absurd (Option.some.inj g1).symm d2
    | fill g1 _ _ => rw [h1] at g1; exact absurd (Option.some.inj g1).symm d3
    | stroke g1 g2 g3 => rw [StrokeMeans.unique hp hn h2 g2, ih g3]
    | other _ _ g1 _ => exact absurd h1 g1
  | other h1 h2 h3 _ ih =>
    cases hg with
    | color g1 _ _ => exact absurd g1 h1
    | fill g1 _ _ => exact absurd g1 h2
    | stroke g1 _ _ => exact absurd g1 h3
    | other _ _ _ g1 => exact ih g1

/-- The style after a block. -/
theorem style_executed {σ : Type} {fns : HandlerMap σ Fail} {get : σ → Compound}
    (hcolor : ∀ h args s s₁, fns "color".toList = some h → h args s = (s₁, none) →
      ∃ v, IsColor E args v ∧ get s₁ = both (get s) ⟨[v], [], [], []⟩)
    (hfill : ∀ h args s s₁, fns "fill".toList = some h → h args s = (s₁, none) →
      ∃ f, FillMeans E args f ∧ get s₁ = both (get s) f)
    (hstroke : ∀ h args s s₁, fns "stroke".toList = some h → h args s = (s₁, none) →
      ∃ f, StrokeMeans E args f ∧ get s₁ = both (get s) f)
    (hother : ∀ n h args s s₁, n ≠ "color".toList → n ≠ "fill".toList → n ≠ "stroke".toList → fns n = some h →
      h args s = (s₁, none) → get s₁ = get s)
    {cmds : List Expr} {s s' : σ} (he : Executed fns cmds s s') :
    ∃ st, StyleMeans E cmds st ∧ get s' = both (get s) st := by
  induction he with
  | nil s => exact ⟨_, .nil, (both_empty' _).symm⟩
  | @cons n args rest s s₁ s' h hn hf hr _ ih =>
    obtain ⟨st, hst, hs⟩ := ih
    have hname := nameOf_isValue hn args
    by_cases h1 : n.getValue = "color".toList
    · rw [h1] at hf hname
      obtain ⟨v, hv, e⟩ := hcolor h args s s₁ hf hr
      exact ⟨_, .color hname hv hst, by rw [hs, e, both_assoc]⟩
    by_cases h2 : n.getValue = "fill".toList
    · rw [h2] at hf hname
      obtain ⟨v, hv, e⟩ := hfill h args s s₁ hf hr
      exact ⟨_, .fill hname hv hst, by rw [hs, e, both_assoc]⟩
    by_cases h3 : n.getValue = "stroke".toList
    · rw [h3] at hf hname
      obtain ⟨v, hv, e⟩ := hstroke h args s s₁ hf hr
      exact ⟨_, .stroke hname hv hst, by rw [hs, e, both_assoc]⟩
    · refine ⟨st, .other ?_ ?_ ?_ hst, by rw [hs, hother _ h args s s₁ h1 h2 h3 hf hr]⟩ <;> rw [hname] <;> simpa

theorem IsPair.unique {c1 c2 : UnitConvMap} {args : List Expr} {a b : Vec2} (h : IsPair E c1 c2 args a)
    (h' : IsPair E c1 c2 args b) : a = b := by
  have h1 := (C80_vec2 E c1 c2 args ⟨0, 0⟩ a).2 h
  rw [(C80_vec2 E c1 c2 args ⟨0, 0⟩ b).2 h'] at h1
  cases h1; rfl

theorem w_position : "position".toList = ['p', 'o', 's', 'i', 't', 'i', 'o', 'n'] := rfl
theorem w_size : "size".toList = ['s', 'i', 'z', 'e'] := rfl
theorem w_text : "text".toList = ['t', 'e', 'x', 't'] := rfl
theorem w_font : "font".toList = ['f', 'o', 'n', 't'] := rfl
theorem w_fontSize : "font-size".toList = ['f', 'o', 'n', 't', '-', 's', 'i', 'z', 'e'] := rfl

theorem rect_executed (hp : E.palette ≠ []) (hn : NoNumbers E) {cmds : List Expr} {a a' : RectArgs}
    (he : Executed (rectTable E) cmds a a') :
    Final (IsPosition E) "position".toList cmds a.position a'.position ∧
    Final (IsExtent E) "size".toList cmds a.size a'.size ∧
    ∃ st, StyleMeans E cmds st ∧ a'.style = both a.style st := by
  refine ⟨executed_final (get := (·.position)) ?_ ?_ he, executed_final (get := (·.size)) ?_ ?_ he,
    style_executed (get := (·.style)) ?_ ?_ ?_ ?_ he⟩
  all_goals simp only [w_color, w_fill, w_stroke, w_position, w_size]
  all_goals
    first
    | (intro h args s s₁ hf hr
       simp only [rectTable, List.cons.injEq, Char.reduceEq, false_and, and_false, and_self, if_false, if_true,
         Option.some.injEq, reduceCtorEq] at hf
       subst hf
       rw [onPart_ok] at hr
       obtain ⟨v, hv, rfl⟩ := hr
       first
       | exact (C80_vec2 _ _ _ _ _ _).1 hv
       | exact (readFillSolid_ok hp _ _ _).1 hv
       | exact (C78_fill E hp _ _ _).1 hv
       | exact (C78_stroke E hp hn _ _ _).1 hv)
    | (intro n h args s s₁ hn hf hr
       simp only [rectTable] at hf
       repeat' split at hf
       all_goals first
         | (simp only [Option.some.injEq] at hf
            subst hf
            rw [onPart_ok] at hr
            obtain ⟨v, hv, rfl⟩ := hr
            first | rfl | (exfalso; apply hn; assumption))
         | cases hf)
    | (intro n h args s s₁ h1 h2 h3 hf hr
       simp only [rectTable] at hf
       repeat' split at hf
       all_goals first
         | (simp only [Option.some.injEq] at hf
            subst hf
            rw [onPart_ok] at hr
            obtain ⟨v, hv, rfl⟩ := hr
            first | rfl | (exfalso; apply h1; assumption) | (exfalso; apply h2; assumption) | (exfalso; apply h3; assumption))
         | cases hf)

theorem rect_accept (hp : E.palette ≠ []) (hn : NoNumbers E) (cmds : List Expr) (a : RectArgs) :
    (∃ a', Executed (rectTable E) cmds a a') ↔ ∀ c ∈ cmds, ∃ n, nameOf c = some n ∧
    ((n = "position".toList ∧ ∃ v, IsPosition E (argsOf c) v) ∨ (n = "size".toList ∧ ∃ v, IsExtent E (argsOf c) v) ∨
      StyleSetting E n (argsOf c)) := by
  refine executed_iff_all (ok := fun n args => (n = "position".toList ∧ ∃ v, IsPosition E args v) ∨
    (n = "size".toList ∧ ∃ v, IsExtent E args v) ∨ StyleSetting E n args) ?_ ?_ cmds a
  · intro n h args s s₁ hf hr
    simp only [rectTable] at hf
    simp only [StyleSetting, w_color, w_fill, w_stroke, w_position, w_size]
    repeat' split at hf
    all_goals first
      | (simp only [Option.some.injEq] at hf
         subst hf
         rw [onPart_ok] at hr
         obtain ⟨v, hv, rfl⟩ := hr
         subst_vars
         first
         | (have := (C80_vec2 _ _ _ _ _ _).1 hv; simp; exact ⟨v, this⟩)
         | (obtain ⟨c, hc, _⟩ := (readFillSolid_ok hp _ _ _).1 hv; simp; exact ⟨c, hc⟩)
         | (obtain ⟨c, hc, _⟩ := (C78_fill E hp _ _ _).1 hv; simp; exact ⟨c, hc⟩)
         | (obtain ⟨c, hc, _⟩ := (C78_stroke E hp hn _ _ _).1 hv; simp; exact ⟨c, hc⟩))
      | cases hf
  · intro n args s hok
    simp only [StyleSetting, w_color, w_fill, w_stroke, w_position, w_size] at hok
    rcases hok with ⟨rfl, v, hv⟩ | ⟨rfl, v, hv⟩ | ⟨rfl, v, hv⟩ | ⟨rfl, v, hv⟩ | ⟨rfl, v, hv⟩
    · exact ⟨_, _, by simp only [rectTable, List.cons.injEq, Char.reduceEq, false_and, and_false, and_self, if_false, if_true, reduceCtorEq]; rfl,
        onPart_ok.2 ⟨_, (C80_vec2 _ _ _ _ _ _).2 hv, rfl⟩⟩
    · exact ⟨_, _, by simp only [rectTable, List.cons.injEq, Char.reduceEq, false_and, and_false, and_self, if_false, if_true, reduceCtorEq]; rfl,
        onPart_ok.2 ⟨_, (C80_vec2 _ _ _ _ _ _).2 hv, rfl⟩⟩
    · exact ⟨_, _, by simp only [rectTable, List.cons.injEq, Char.reduceEq, false_and, and_false, and_self, if_false, if_true, reduceCtorEq]; rfl,
        onPart_ok.2 ⟨_, (readFillSolid_ok hp _ _ _).2 ⟨v, hv, rfl⟩, rfl⟩⟩
    · exact ⟨_, _, by simp only [rectTable, List.cons.injEq, Char.reduceEq, false_and, and_false, and_self, if_false, if_true, reduceCtorEq]; rfl,
        onPart_ok.2 ⟨_, (C78_fill E hp _ _ _).2 ⟨v, hv, rfl⟩, rfl⟩⟩
    · exact ⟨_, _, by simp only [rectTable, List.cons.injEq, Char.reduceEq, false_and, and_false, and_self, if_false, if_true, reduceCtorEq]; rfl,
        onPart_ok.2 ⟨_, (C78_stroke E hp hn _ _ _).2 ⟨v, hv, rfl⟩, rfl⟩⟩

theorem orDefault_eq (s d : Compound) : (if styleVisible s then s else d) = orDefault s d := by
  obtain ⟨a, b, c, e⟩ := s
  cases a <;> cases b <;> cases c <;> cases e <;> simp [styleVisible, orDefault]

end

variable {φ : Type}

/-- C81: a rectangle command succeeds exactly if all its settings mean something; then it adds one shape to the drawing,
the rectangle with the given centre and size in the given style. -/
theorem C81_rectangle (stod : Str → Option (ℝ × Nat)) (L L' : Layer φ) (hp : L.palette ≠ [])
    (hn : stod "solid".toList = none ∧ stod "dash".toList = none) (args : List Expr) :
    drawRectangle stod args L = (L', none) ↔
      ∃ position size style, RectMeans (L.env stod) args position size style ∧
        L' = { L with drawlist := L.drawlist ++ [⟨rectangle position size, orDefault style L.defaultStyle, false⟩] } := by
  have hp' : (L.env stod).palette ≠ [] := hp
  have hn' : NoNumbers (L.env stod) := hn
  unfold drawRectangle
  rcases walkRead_cases (rectTable (L.env stod)) args ⟨Compound.none,
      ⟨layerSize L.size.width L.size.dpi * 0.5, layerSize L.size.height L.size.dpi * 0.5⟩,
      ⟨layerSize L.size.width L.size.dpi, layerSize L.size.height L.size.dpi⟩⟩ with ⟨a, e, he⟩ | ⟨a, f, e, he⟩
  · simp only [e]
    obtain ⟨h1, h2, st, h3, h4⟩ := rect_executed hp' hn' he
    have hc : (⟨layerSize L.size.width L.size.dpi * 0.5, layerSize L.size.height L.size.dpi * 0.5⟩ : Vec2) =
        ⟨(page (L.env stod)).x / 2, (page (L.env stod)).y / 2⟩ := by
      simp only [page, Layer.env, Vec2.mk.injEq]
      constructor <;> ring
    simp only [hc] at h1
    have h4 : a.style = st := by rw [h4]; exact both_empty st
    simp only [Prod.mk.injEq, and_true, drawPath, orDefault_eq, pathAddRectCentered, List.nil_append]
    constructor
    · rintro rfl
      exact ⟨a.position, a.size, a.style, ⟨(rect_accept hp' hn' _ _).1 ⟨_, he⟩, h1, h2, h4 ▸ h3⟩, rfl⟩
    · rintro ⟨p, s, st', ⟨_, g1, g2, g3⟩, rfl⟩
      rw [Final.unique (fun args a b => IsPair.unique (args := args) (a := a) (b := b)) g1 h1,
        Final.unique (fun args a b => IsPair.unique (args := args) (a := a) (b := b)) g2 h2,
        StyleMeans.unique hp' hn' g3 h3, h4]
      rfl
  · simp only [e, Prod.mk.injEq, reduceCtorEq, and_false, false_iff]
    rintro ⟨p, s, st, ⟨ha, _⟩, _⟩
    obtain ⟨a', he'⟩ := (rect_accept hp' hn' args _).2 ha
    exact he _ he'

/-- C81: a rectangle command that fails leaves the drawing as it was. -/
theorem C81_refused (stod : Str → Option (ℝ × Nat)) (L L' : Layer φ) (args : List Expr) (f : Fail)
    (h : drawRectangle stod args L = (L', some f)) : L' = L := by
  unfold drawRectangle at h
  simp only at h
  split at h <;> cases h
  rfl

end Clip
