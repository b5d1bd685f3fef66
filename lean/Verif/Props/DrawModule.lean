import Verif.Props.DrawText
set_option linter.unusedSimpArgs false
/-! Property theorems C82 (text commands) and C81 (the order of the commands of the draw module). -/
namespace Clip
open Commands Settings Drawing Pictures
variable {φ : Type}

theorem isText_iff (args : List Expr) (t : Str) : exprToString args = some t ↔ IsText args t := by
  unfold exprToString IsText
  cases args with
  | nil => simp
  | cons e rest => cases e <;> simp [Expr.isValue, Expr.getValue]

theorem isText_unique {args : List Expr} {a b : Str} (h : IsText args a) (h' : IsText args b) : a = b := by
  rw [← isText_iff] at h h'
  rw [h] at h'; cases h'; rfl

/-- The arguments name a font that can be loaded. -/
def IsFont (T : TextEnv φ) (args : List Expr) (f : φ) : Prop := ∃ t, IsText args t ∧ T.loadFont t = some f

theorem isFont_unique {T : TextEnv φ} {args : List Expr} {a b : φ} (h : IsFont T args a) (h' : IsFont T args b) : a = b := by
  obtain ⟨t, h1, h2⟩ := h
  obtain ⟨t', k1, k2⟩ := h'
  rw [isText_unique h1 k1] at h2
  rw [h2] at k2; cases k2; rfl

theorem readText_ok {args : List Expr} {t : Str} :
    (match exprToString args with | some t => Except.ok t | none => .error (Fail.error .expectedValue)) = Except.ok t ↔
      IsText args t := by
  rw [← isText_iff]
  cases exprToString args <;> simp

theorem readFont_ok {T : TextEnv φ} {args : List Expr} {f : φ} :
    (match exprToString args with
      | some t => match T.loadFont t with
        | some f => Except.ok f
        | none => .error (Fail.error .font)
      | none => .error (Fail.error .expectedValue)) = Except.ok f ↔ IsFont T args f := by
  unfold IsFont
  simp only [← isText_iff]
  cases exprToString args with
  | none => simp
  | some t => cases hl : T.loadFont t <;> simp [hl]

section
variable {E : ReadEnv} {T : TextEnv φ}

/-- What a successful command of a text does. -/
theorem textTable_step (hp : E.palette ≠ []) (hn : NoNumbers E) {n : Str} {h : Handler (TextOp φ) Fail} {args : List Expr}
    {s s₁ : TextOp φ} (hf : textTable T E n = some h) (hr : h args s = (s₁, none)) :
    (n = "position".toList ∧ ∃ v, IsPosition E args v ∧ s₁ = { s with position := v }) ∨
    (n = "text".toList ∧ ∃ v, IsText args v ∧ s₁ = { s with text := v }) ∨
    (n = "font".toList ∧ ∃ v, IsFont T args v ∧ s₁ = { s with fonts := v :: s.fonts }) ∨
    (n = "font-size".toList ∧ ∃ v, IsSize E args v ∧ s₁ = { s with fontSize := v }) ∨
    (n = "color".toList ∧ ∃ v, IsColor E args v ∧ s₁ = { s with style := both s.style ⟨[v], [], [], []⟩ }) ∨
    (n = "fill".toList ∧ ∃ v, FillMeans E args v ∧ s₁ = { s with style := both s.style v }) ∨
    (n = "stroke".toList ∧ ∃ v, StrokeMeans E args v ∧ s₁ = { s with style := both s.style v }) := by
  simp only [textTable] at hf
  split at hf
  · cases hf
    obtain ⟨v, hv, rfl⟩ := onPart_ok.1 hr
    exact .inl ⟨by assumption, v, (C80_vec2 _ _ _ _ _ _).1 hv, rfl⟩
  split at hf
  · cases hf
    obtain ⟨v, hv, rfl⟩ := field_ok.1 hr
    exact .inr (.inl ⟨by assumption, v, readText_ok.1 hv, rfl⟩)
  split at hf
  · cases hf
    obtain ⟨v, hv, rfl⟩ := field_ok.1 hr
    exact .inr (.inr (.inl ⟨by assumption, v, readFont_ok.1 hv, rfl⟩))
  split at hf
  · cases hf
    obtain ⟨v, hv, rfl⟩ := field_ok.1 hr
    exact .inr (.inr (.inr (.inl ⟨by assumption, v, readNumber_ok.1 hv, rfl⟩)))
  split at hf
  · cases hf
    obtain ⟨v, hv, rfl⟩ := onPart_ok.1 hr
    obtain ⟨c, hc, rfl⟩ := (readFillSolid_ok hp _ _ _).1 hv
    exact .inr (.inr (.inr (.inr (.inl ⟨by assumption, c, hc, rfl⟩))))
  split at hf
  · cases hf
    obtain ⟨v, hv, rfl⟩ := onPart_ok.1 hr
    obtain ⟨c, hc, rfl⟩ := (C78_fill E hp _ _ _).1 hv
    exact .inr (.inr (.inr (.inr (.inr (.inl ⟨by assumption, c, hc, rfl⟩)))))
  split at hf
  · cases hf
    obtain ⟨v, hv, rfl⟩ := onPart_ok.1 hr
    obtain ⟨c, hc, rfl⟩ := (C78_stroke E hp hn _ _ _).1 hv
    exact .inr (.inr (.inr (.inr (.inr (.inr ⟨by assumption, c, hc, rfl⟩)))))
  · cases hf

theorem fonts_executed (hp : E.palette ≠ []) (hn : NoNumbers E) {cmds : List Expr} {a a' : TextOp φ}
    (he : Executed (textTable T E) cmds a a') :
    ∃ own, List.Forall₂ (IsFont T) (allArgs "font".toList cmds) own ∧ a'.fonts = own.reverse ++ a.fonts := by
  refine executed_accum (get := (·.fonts)) (R := fun cmds before after =>
    ∃ own, List.Forall₂ (IsFont T) (allArgs "font".toList cmds) own ∧ after = own.reverse ++ before) ?_ ?_ he
  · intro a; exact ⟨[], .nil, rfl⟩
  · rintro n h args rest s s₁ a hf hr ⟨own, ho, rfl⟩ e he rfl
    have hname := nameOf_isValue he args
    rcases textTable_step hp hn hf hr with ⟨w, v, hv, rfl⟩ | ⟨w, v, hv, rfl⟩ | ⟨w, v, hv, rfl⟩ | ⟨w, v, hv, rfl⟩ | ⟨w, v, hv, rfl⟩ |
      ⟨w, v, hv, rfl⟩ | ⟨w, v, hv, rfl⟩
    case inr.inr.inl =>
      refine ⟨v :: own, ?_, by simp⟩
      unfold allArgs
      rw [List.filter_cons_of_pos (by rw [hname, w]; decide)]
      exact .cons hv ho
    all_goals
      refine ⟨own, ?_, rfl⟩
      unfold allArgs
      rw [List.filter_cons_of_neg (by rw [hname, w]; decide)]
      exact ho

theorem text_executed (hp : E.palette ≠ []) (hn : NoNumbers E) {cmds : List Expr} {a a' : TextOp φ}
    (he : Executed (textTable T E) cmds a a') :
    Final IsText "text".toList cmds a.text a'.text ∧
    Final (IsPosition E) "position".toList cmds a.position a'.position ∧
    Final (IsSize E) "font-size".toList cmds a.fontSize a'.fontSize ∧
    (∃ st, StyleMeans E cmds st ∧ a'.style = both a.style st) ∧
    (∃ own, List.Forall₂ (IsFont T) (allArgs "font".toList cmds) own ∧ a'.fonts = own.reverse ++ a.fonts) ∧
    a'.alignX = a.alignX ∧ a'.alignY = a.alignY ∧ a'.direction = a.direction ∧ a'.transform = a.transform := by
  have step : ∀ n h args s s₁, textTable T E n = some h → h args s = (s₁, none) → _ :=
    fun n h args s s₁ hf hr => textTable_step hp hn (args := args) (s := s) (s₁ := s₁) hf hr
  have keep : ∀ {α : Type} (get : TextOp φ → α),
      (∀ s t f x z c, get { s with text := t } = get s ∧ get { s with position := f } = get s ∧
        get { s with fonts := x } = get s ∧ get { s with fontSize := z } = get s ∧ get { s with style := c } = get s) →
      get a' = get a := by
    intro α get hg
    refine executed_accum (get := get) (R := fun _ before after => after = before) (fun _ => rfl) ?_ he
    rintro n h args rest s s₁ b hf hr rfl e _ _
    have := hg s
    rcases step n h args s s₁ hf hr with ⟨_, v, _, rfl⟩ | ⟨_, v, _, rfl⟩ | ⟨_, v, _, rfl⟩ | ⟨_, v, _, rfl⟩ | ⟨_, v, _, rfl⟩ |
      ⟨_, v, _, rfl⟩ | ⟨_, v, _, rfl⟩
    · exact (hg s [] v [] 0 Compound.none).2.1
    · exact (hg s v ⟨0, 0⟩ [] 0 Compound.none).1
    · exact (hg s [] ⟨0, 0⟩ _ 0 Compound.none).2.2.1
    · exact (hg s [] ⟨0, 0⟩ [] v Compound.none).2.2.2.1
    · exact (hg s [] ⟨0, 0⟩ [] 0 _).2.2.2.2
    · exact (hg s [] ⟨0, 0⟩ [] 0 _).2.2.2.2
    · exact (hg s [] ⟨0, 0⟩ [] 0 _).2.2.2.2
  refine ⟨executed_final (get := (·.text)) ?_ ?_ he, executed_final (get := (·.position)) ?_ ?_ he,
    executed_final (get := (·.fontSize)) ?_ ?_ he, style_executed (get := (·.style)) ?_ ?_ ?_ ?_ he,
    fonts_executed hp hn he, keep (·.alignX) ?_, keep (·.alignY) ?_, keep (·.direction) ?_, keep (·.transform) ?_⟩
  all_goals
    first
    | (intro h args s s₁ hf hr
       rcases step _ h args s s₁ hf hr with ⟨w, v, hv, rfl⟩ | ⟨w, v, hv, rfl⟩ | ⟨w, v, hv, rfl⟩ | ⟨w, v, hv, rfl⟩ | ⟨w, v, hv, rfl⟩ |
        ⟨w, v, hv, rfl⟩ | ⟨w, v, hv, rfl⟩ <;> first | exact absurd w (by decide) | exact hv | exact ⟨v, hv, rfl⟩)
    | (intro n h args s s₁ hne hf hr
       rcases step _ h args s s₁ hf hr with ⟨w, v, hv, rfl⟩ | ⟨w, v, hv, rfl⟩ | ⟨w, v, hv, rfl⟩ | ⟨w, v, hv, rfl⟩ | ⟨w, v, hv, rfl⟩ |
        ⟨w, v, hv, rfl⟩ | ⟨w, v, hv, rfl⟩ <;> first | rfl | exact absurd w hne)
    | (intro n h args s s₁ h1 h2 h3 hf hr
       rcases step _ h args s s₁ hf hr with ⟨w, v, hv, rfl⟩ | ⟨w, v, hv, rfl⟩ | ⟨w, v, hv, rfl⟩ | ⟨w, v, hv, rfl⟩ | ⟨w, v, hv, rfl⟩ |
        ⟨w, v, hv, rfl⟩ | ⟨w, v, hv, rfl⟩ <;> first | rfl | exact absurd w h1 | exact absurd w h2 | exact absurd w h3)
    | (intros; exact ⟨rfl, rfl, rfl, rfl, rfl⟩)

theorem text_accept (hp : E.palette ≠ []) (hn : NoNumbers E) (cmds : List Expr) (a : TextOp φ) :
    (∃ a', Executed (textTable T E) cmds a a') ↔ ∀ c ∈ cmds, ∃ n, nameOf c = some n ∧
    ((n = "position".toList ∧ ∃ v, IsPosition E (argsOf c) v) ∨ (n = "text".toList ∧ ∃ t, IsText (argsOf c) t) ∨
      (n = "font".toList ∧ ∃ t f, IsText (argsOf c) t ∧ T.loadFont t = some f) ∨
      (n = "font-size".toList ∧ ∃ v, IsSize E (argsOf c) v) ∨ StyleSetting E n (argsOf c)) := by
  refine executed_iff_all (ok := fun n args => (n = "position".toList ∧ ∃ v, IsPosition E args v) ∨
    (n = "text".toList ∧ ∃ t, IsText args t) ∨ (n = "font".toList ∧ ∃ t f, IsText args t ∧ T.loadFont t = some f) ∨
      (n = "font-size".toList ∧ ∃ v, IsSize E args v) ∨ StyleSetting E n args) ?_ ?_ cmds a
  · intro n h args s s₁ hf hr
    rcases textTable_step hp hn hf hr with ⟨w, v, hv, -⟩ | ⟨w, v, hv, -⟩ | ⟨w, v, ⟨t, hv⟩, -⟩ | ⟨w, v, hv, -⟩ | ⟨w, v, hv, -⟩ |
      ⟨w, v, hv, -⟩ | ⟨w, v, hv, -⟩
    · exact .inl ⟨w, v, hv⟩
    · exact .inr (.inl ⟨w, v, hv⟩)
    · exact .inr (.inr (.inl ⟨w, t, v, hv⟩))
    · exact .inr (.inr (.inr (.inl ⟨w, v, hv⟩)))
    · exact .inr (.inr (.inr (.inr (.inl ⟨w, v, hv⟩))))
    · exact .inr (.inr (.inr (.inr (.inr (.inl ⟨w, v, hv⟩)))))
    · exact .inr (.inr (.inr (.inr (.inr (.inr ⟨w, v, hv⟩)))))
  · rintro n args s (⟨rfl, v, hv⟩ | ⟨rfl, v, hv⟩ | ⟨rfl, t, f, hv⟩ | ⟨rfl, v, hv⟩ | ⟨rfl, v, hv⟩ | ⟨rfl, v, hv⟩ | ⟨rfl, v, hv⟩)
    · exact ⟨_, _, rfl, onPart_ok.2 ⟨_, (C80_vec2 _ _ _ _ _ _).2 hv, rfl⟩⟩
    · exact ⟨_, _, rfl, field_ok.2 ⟨_, readText_ok.2 hv, rfl⟩⟩
    · exact ⟨_, _, rfl, field_ok.2 ⟨_, readFont_ok.2 ⟨t, hv⟩, rfl⟩⟩
    · exact ⟨_, _, rfl, field_ok.2 ⟨_, readNumber_ok.2 hv, rfl⟩⟩
    · exact ⟨_, _, rfl, onPart_ok.2 ⟨_, (readFillSolid_ok hp _ _ _).2 ⟨v, hv, rfl⟩, rfl⟩⟩
    · exact ⟨_, _, rfl, onPart_ok.2 ⟨_, (C78_fill E hp _ _ _).2 ⟨v, hv, rfl⟩, rfl⟩⟩
    · exact ⟨_, _, rfl, onPart_ok.2 ⟨_, (C78_stroke E hp hn _ _ _).2 ⟨v, hv, rfl⟩, rfl⟩⟩
end

/-- C82: a text command succeeds exactly if all its settings mean something, it has a text, and the text can be drawn;
then it adds the shapes of the text, centred at its position, in the fonts of the command and of the document. -/
theorem C82_text (T : TextEnv φ) (hT : LevelsOfChars T) (stod : Str → Option (ℝ × Nat)) (L L' : Layer φ)
    (hp : L.palette ≠ []) (hn : stod "solid".toList = none ∧ stod "dash".toList = none) (args : List Expr) :
    drawTextCmd T stod args L = (L', none) ↔
      ∃ text position fonts size style shapes,
        TextMeans (L.env stod) T.loadFont L.fonts args text position fonts size style ∧ text ≠ [] ∧
        TextShapes T fonts size L.size.dpi text position .center .center (orDefault style L.defaultStyle) shapes ∧
        L' = draw L shapes := by
  have hp' : (L.env stod).palette ≠ [] := hp
  have hn' : NoNumbers (L.env stod) := hn
  have hc : (⟨layerSize L.size.width L.size.dpi * 0.5, layerSize L.size.height L.size.dpi * 0.5⟩ : Vec2) =
      ⟨(page (L.env stod)).x / 2, (page (L.env stod)).y / 2⟩ := by
    simp only [page, Layer.env, Vec2.mk.injEq]
    constructor <;> ring
  unfold drawTextCmd
  simp only [hc]
  rcases walkRead_cases (textTable T (L.env stod)) args ⟨[], ⟨(page (L.env stod)).x / 2, (page (L.env stod)).y / 2⟩, .center,
      .center, L.fonts, layerSize L.size.fontSize L.size.dpi, .ltr, Compound.none, none⟩ with ⟨a, e, he⟩ | ⟨a, f, e, he⟩
  · simp only [e]
    obtain ⟨h1, h2, h3, ⟨st, h4, h5⟩, ⟨own, h6, h7⟩, h8, h9, h10, h11⟩ := text_executed hp' hn' he
    have h5 : a.style = st := by rw [h5]; exact both_empty st
    obtain ⟨t, p, ax, ay, fs, sz, d, sty, tr⟩ := a
    simp only at h1 h2 h3 h5 h7 h8 h9 h10 h11 ⊢
    subst h5 h8 h9 h10 h11 h7
    rw [orDefault_eq, C82_draw T hT]
    constructor
    · rintro ⟨g1, shapes, g2, rfl⟩
      exact ⟨t, p, _, sz, sty, shapes, ⟨(text_accept hp' hn' _ _).1 ⟨_, he⟩, h1, h2, h3, ⟨own, h6, rfl⟩, h4⟩, g1, g2, rfl⟩
    · rintro ⟨t', p', fs', sz', st', shapes, ⟨_, k1, k2, k3, ⟨own', k4, k5⟩, k6⟩, g1, g2, rfl⟩
      have e1 := Final.unique (fun args a b => isText_unique (args := args) (a := a) (b := b)) k1 h1
      have e2 := Final.unique (fun args a b => IsPair.unique (args := args) (a := a) (b := b)) k2 h2
      have e3 := Final.unique (fun args a b => IsSize.unique (args := args) (a := a) (b := b)) k3 h3
      have e4 := forall₂_unique (fun a b b' h h' => isFont_unique (T := T) (args := a) h h') k4 h6
      have e5 := StyleMeans.unique hp' hn' k6 h4
      subst e1 e2 e3 e4 e5 k5
      exact ⟨g1, shapes, g2, rfl⟩
  · simp only [e, Prod.mk.injEq, reduceCtorEq, and_false, false_iff]
    rintro ⟨_, _, _, _, _, _, ⟨ha, _⟩, _⟩
    obtain ⟨a', he'⟩ := (text_accept hp' hn' args _).2 ha
    exact he _ he'

/-! ## The draw module -/

theorem draw_draw (L : Layer φ) (a b : List DrawCmd) : draw (draw L a) b = draw L (a ++ b) := by
  simp [Pictures.draw]

theorem draws_draw (T : TextEnv φ) (stod : Str → Option (ℝ × Nat)) (L : Layer φ) (a : List DrawCmd) (c : Expr)
    (shapes : List DrawCmd) (h : Draws T stod (draw L a) c shapes) : Draws T stod L c shapes := by
  cases h with
  | rectangle h1 h2 h3 => exact .rectangle h1 h2 h3
  | text h1 h2 h3 h4 => exact .text h1 h2 h3 h4

theorem draws_draw' (T : TextEnv φ) (stod : Str → Option (ℝ × Nat)) (L : Layer φ) (a : List DrawCmd) (c : Expr)
    (shapes : List DrawCmd) (h : Draws T stod L c shapes) : Draws T stod (draw L a) c shapes := by
  cases h with
  | rectangle h1 h2 h3 => exact .rectangle h1 h2 h3
  | text h1 h2 h3 h4 => exact .text h1 h2 h3 h4

theorem drawTable_step (T : TextEnv φ) (hT : LevelsOfChars T) (stod : Str → Option (ℝ × Nat)) (L L' : Layer φ)
    (hp : L.palette ≠ []) (hn : stod "solid".toList = none ∧ stod "dash".toList = none) (n : Expr) (args : List Expr)
    (hv : n.isValue = true) :
    (∃ h, drawTable T stod n.getValue = some h ∧ h args L = (L', none)) ↔
      ∃ shapes, Draws T stod L (.list (n :: args)) shapes ∧ L' = draw L shapes := by
  have hname := nameOf_isValue hv args
  constructor
  · rintro ⟨h, hf, hr⟩
    simp only [drawTable] at hf
    split at hf
    · cases hf
      rename_i hw
      rw [hw] at hname
      obtain ⟨t, p, fs, sz, st, shapes, h1, h2, h3, h4⟩ := (C82_text T hT stod L L' hp hn args).1 hr
      exact ⟨shapes, .text hname h1 h2 h3, h4⟩
    split at hf
    · cases hf
      rename_i hw
      rw [hw] at hname
      obtain ⟨p, s, st, h1, h2⟩ := (C81_rectangle stod L L' hp hn args).1 hr
      exact ⟨_, .rectangle hname h1 rfl, h2⟩
    · cases hf
  · rintro ⟨shapes, hd, rfl⟩
    cases hd with
    | rectangle h1 h2 h3 =>
      rw [hname] at h1
      rw [Option.some.inj h1]
      exact ⟨_, rfl, (C81_rectangle stod L _ hp hn args).2 ⟨_, _, _, h2, by rw [h3]; rfl⟩⟩
    | text h1 h2 h3 h4 =>
      rw [hname] at h1
      rw [Option.some.inj h1]
      exact ⟨_, rfl, (C82_text T hT stod L _ hp hn args).2 ⟨_, _, _, _, _, _, h2, h3, h4, rfl⟩⟩

/-- C81: the draw module succeeds exactly if each of its commands is a rectangle or text that can be drawn; the page then
has the shapes of the first command, then those of the second and so on, above what was on it before. -/
theorem C81_module (T : TextEnv φ) (hT : LevelsOfChars T) (stod : Str → Option (ℝ × Nat)) (L L' : Layer φ)
    (hp : L.palette ≠ []) (hn : stod "solid".toList = none ∧ stod "dash".toList = none) (cmds : List Expr) :
    drawModule T stod cmds L = (L', none) ↔
      ∃ shapes, List.Forall₂ (Draws T stod L) cmds shapes ∧ L' = draw L shapes.flatten := by
  unfold drawModule
  rw [walkRead_ok]
  constructor
  · intro he
    induction he with
    | nil s => exact ⟨[], .nil, by simp [Pictures.draw]⟩
    | @cons n args rest s s₁ s' h hv hf hr _ ih =>
      obtain ⟨shapes, hd, rfl⟩ := (drawTable_step T hT stod s s₁ hp hn n args hv).1 ⟨h, hf, hr⟩
      obtain ⟨more, hm, rfl⟩ := ih hp
      exact ⟨shapes :: more, .cons hd (hm.imp fun c s hs => draws_draw T stod _ _ c s hs), draw_draw _ _ _⟩
  · rintro ⟨shapes, hd, rfl⟩
    induction cmds generalizing L shapes with
    | nil => cases hd; rw [show draw L (List.flatten []) = L by simp [Pictures.draw]]; exact .nil _
    | cons c rest ih =>
      cases hd with
      | @cons _ sh _ more h hm =>
      have hname : ∃ w, nameOf c = some w := by
        cases h with
        | rectangle h1 _ _ => exact ⟨_, h1⟩
        | text h1 _ _ _ => exact ⟨_, h1⟩
      obtain ⟨w, hw⟩ := hname
      obtain ⟨n, args, rfl, hv, rfl⟩ := nameOf_some hw
      obtain ⟨hh, hf, hr⟩ := (drawTable_step T hT stod L (draw L sh) hp hn n args hv).2 ⟨sh, h, rfl⟩
      refine .cons hv hf hr ?_
      rw [List.flatten_cons, ← draw_draw]
      exact ih (draw L sh) hp more (hm.imp fun c s hs => draws_draw' T stod _ _ c s hs)

/-! ## A concrete case -/

/-- A font with one glyph for each character, as wide as high, and no right-to-left text. -/
noncomputable def monoEnv : TextEnv Unit where
  loadFont := fun _ => some ()
  levels := fun _ t => some (t.map fun _ => 0)
  shapeRun := fun _ r s _ => some (r.text.map fun c => ⟨((), c.toNat), s, s, 0⟩)
  glyphPath := fun _ _ _ _ => some [.moveTo 0 0, .lineTo 1 1, .close]

theorem monoEnv_levels : LevelsOfChars monoEnv := by
  intro dir text levels h
  simp only [monoEnv, Option.some.injEq] at h
  subst h
  simp

theorem someStod_words : someStod "solid".toList = none ∧ someStod "dash".toList = none := by simp [someStod]

/-- A page with one font. -/
noncomputable def monoLayer : Layer Unit := ⟨defaultLayer, [()], .black, someEnv.palette, ⟨[.black], [], [], []⟩, []⟩

/-- `rectangle(size 3pt 3pt)` and `text(text ab)` draw three shapes. -/
example : ∃ L', drawModule monoEnv someStod
    [.list [.literal "rectangle".toList, .list [.literal "size".toList, .literal ['3', 'p', 't'], .literal ['3', 'p', 't']]],
     .list [.literal "text".toList, .list [.literal "text".toList, .literal ['a', 'b']]]] monoLayer = (L', none) ∧
    L'.drawlist.length = 3 := by
  have hs : exprToNumber someStod (uconvSize defaultLayer) (.literal ['3', 'p', 't']) = .ok 8 := by
    obtain ⟨e, r, h, h'⟩ := some_3pt []
    cases h; exact h'
  have hpair : IsExtent (monoLayer.env someStod) [.literal ['3', 'p', 't'], .literal ['3', 'p', 't']] ⟨8, 8⟩ :=
    ⟨_, _, rfl, hs, hs⟩
  obtain ⟨shapes, hsh, hlen⟩ : ∃ shapes, TextShapes monoEnv [()] (layerSize defaultLayer.fontSize defaultLayer.dpi)
      defaultLayer.dpi ['a', 'b'] ⟨(page (monoLayer.env someStod)).x / 2, (page (monoLayer.env someStod)).y / 2⟩ .center
      .center ⟨[.black], [], [], []⟩ shapes ∧ shapes.length = 2 := by
    set sz := layerSize defaultLayer.fontSize defaultLayer.dpi
    set pos : Vec2 := ⟨(page (monoLayer.env someStod)).x / 2, (page (monoLayer.env someStod)).y / 2⟩
    set sp := sz / defaultLayer.dpi * 72
    have hsp : 0 ≤ sp := by
      simp only [sp, sz, defaultLayer, layerSize, unitFromPt]
      norm_num
    have := textShapes_iff monoEnv ⟨['a', 'b'], pos, .center, .center, [()], sz, .ltr, ⟨[.black], [], [], []⟩, none⟩ rfl
      defaultLayer.dpi
    simp only at this
    refine ⟨_, (this _).2 ⟨[⟨((), 97), sp, sp, 0⟩, ⟨((), 98), sp, sp, 0⟩], [[.moveTo 0 0, .lineTo 1 1, .close],
      [.moveTo 0 0, .lineTo 1 1, .close]], sp, 0, ?_, ?_, ?_, ?_, rfl⟩, rfl⟩
    · refine ⟨[0, 0], [(⟨['a', 'b'], .ltr⟩, 0)], [0], [[⟨((), 97), sp, sp, 0⟩, ⟨((), 98), sp, sp, 0⟩]], rfl,
        ⟨rfl, rfl, by simp, by simp⟩, ⟨List.Perm.refl _, ?_⟩, .cons ⟨_, rfl, .inr ⟨[], (), [], rfl, by simp, rfl, .inl rfl⟩⟩ .nil, rfl⟩
      intro i j m h1 h2
      simp at h2
      omega
    · exact .cons rfl (.cons rfl .nil)
    · exact ⟨.inr (by simp), hsp, by simp⟩
    · exact ⟨.inl rfl, le_refl _, by simp⟩
  refine ⟨_, (C81_module monoEnv monoEnv_levels someStod monoLayer _ someEnv_palette someStod_words _).2
    ⟨[_, _], .cons (.rectangle (style := ⟨[], [], [], []⟩) rfl ⟨?_, rfl, hpair, ?_⟩ rfl)
      (.cons (.text (fonts := [()]) (style := ⟨[], [], [], []⟩) (text := ['a', 'b']) rfl ⟨?_, ⟨[], .inl rfl⟩, rfl, rfl, ⟨[], .nil, rfl⟩, ?_⟩
        (by simp) hsh) .nil), rfl⟩, ?_⟩
  · intro c hc
    simp only [argsOf, List.mem_singleton] at hc
    subst hc
    exact ⟨_, rfl, .inr (.inl ⟨rfl, _, hpair⟩)⟩
  · exact .other (by decide) (by decide) (by decide) .nil
  · intro c hc
    simp only [argsOf, List.mem_singleton] at hc
    subst hc
    exact ⟨_, rfl, .inr (.inl ⟨rfl, _, [], .inl rfl⟩)⟩
  · exact .other (by decide) (by decide) (by decide) .nil
  · simp [Pictures.draw, monoLayer, hlen]

end Clip
