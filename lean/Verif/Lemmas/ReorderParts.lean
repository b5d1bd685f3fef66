import Verif.Lemmas.Reorder
set_option linter.unusedSimpArgs false
/-! Options in another order: scales, strokes and fills. -/
namespace Clip.Reorder
open Commands Settings Pictures Drawing Options
variable {φ : Type} {P : PlotEnv φ} {E : ReadEnv}

/-! ## Scales -/

theorem words_min {args : List Expr} {a b : Scale} (h : ScaleWords P args a b) : b.min = a.min ∧ b.max = a.max := by
  induction h with
  | nil s => exact ⟨rfl, rfl⟩
  | cons h _ ih => rw [ih.1, ih.2]; cases h <;> exact ⟨rfl, rfl⟩

def strip (s : Scale) : Scale := { s with min := none, max := none }

theorem words_strip {args : List Expr} {a b : Scale} (h : ScaleWords P args a b) : ScaleWords P args (strip a) (strip b) := by
  induction h with
  | nil s => exact .nil _
  | cons h _ ih =>
    refine .cons ?_ ih
    cases h with
    | linear h => exact .linear h
    | log h => exact .log h
    | logBase h h' => exact .logBase h h'
    | invert h => exact .invert h
    | categorical h => exact .categorical h
    | categories h h' => exact .categories h (s := strip _) h'

/-- The options of a scale: two or more that set limits, and others. -/
structure ScaleTable (t : List (String × Effect Scale)) (lo hi rest : List String) : Prop where
  names : (t.map (·.1)).Nodup
  entry : ∀ p ∈ t, (p.2 = scaleLimits E ∧ p.1 ∈ lo ∧ p.1 ∈ hi ∧ p.1 ∉ rest) ∨ (p.2 = scaleMinimum E ∧ p.1 ∈ lo ∧ p.1 ∉ hi ∧ p.1 ∉ rest) ∨
    (p.2 = scaleMaximum E ∧ p.1 ∉ lo ∧ p.1 ∈ hi ∧ p.1 ∉ rest) ∨
    ((p.2 = ScaleWords P ∨ p.2 = scalePad E) ∧ p.1 ∉ lo ∧ p.1 ∉ hi ∧ p.1 ∈ rest)

theorem limits_fun {args : List Expr} {a b a' b' : Scale} (h : scaleLimits E args a b) (h' : scaleLimits E args a' b') :
    b.min = b'.min ∧ b.max = b'.max := by
  obtain ⟨x, y, lo, hi, rfl, h1, h2, rfl⟩ := h
  obtain ⟨x', y', lo', hi', he, h1', h2', rfl⟩ := h'
  cases he
  rw [h1] at h1'; rw [h2] at h2'; cases h1'; cases h2'
  exact ⟨rfl, rfl⟩

theorem scale_same {t : List (String × Effect Scale)} {lo hi rest : List String} (ht : ScaleTable (P := P) (E := E) t lo hi rest)
    {cs cs' : List Expr} (h1 : cs.filter (named lo) = cs'.filter (named lo)) (h2 : cs.filter (named hi) = cs'.filter (named hi))
    (h3 : cs.filter (named rest) = cs'.filter (named rest)) {a b b' : Scale} (h : Acts t cs a b) (h' : Acts t cs' a b') : b = b' := by
  have e1 : b.min = b'.min := by
    refine part_same (·.min) lo ht.names (fun p hp hn args a b hf => ?_) (fun p hp hn args a b a' b' ha hf hf' => ?_) h1 h h'
    · rcases ht.entry p hp with ⟨_, h, _⟩ | ⟨_, h, _⟩ | ⟨he, _⟩ | ⟨he | he, _⟩
      · exact absurd h hn
      · exact absurd h hn
      · rw [he] at hf; obtain ⟨v, _, rfl⟩ := hf; rfl
      · rw [he] at hf; exact (words_min hf).1
      · rw [he] at hf; obtain ⟨v, _, rfl⟩ := hf; rfl
    · rcases ht.entry p hp with ⟨he, _⟩ | ⟨he, _⟩ | ⟨_, h, _⟩ | ⟨_, h, _⟩
      · rw [he] at hf hf'; exact (limits_fun hf hf').1
      · rw [he] at hf hf'
        obtain ⟨v, hv, rfl⟩ := hf
        obtain ⟨v', hv', rfl⟩ := hf'
        exact congrArg some (fun_number args 0 _ _ hv hv')
      · exact absurd hn h
      · exact absurd hn h
  have e2 : b.max = b'.max := by
    refine part_same (·.max) hi ht.names (fun p hp hn args a b hf => ?_) (fun p hp hn args a b a' b' ha hf hf' => ?_) h2 h h'
    · rcases ht.entry p hp with ⟨_, _, h, _⟩ | ⟨he, _⟩ | ⟨_, _, h, _⟩ | ⟨he | he, _⟩
      · exact absurd h hn
      · rw [he] at hf; obtain ⟨v, _, rfl⟩ := hf; rfl
      · exact absurd h hn
      · rw [he] at hf; exact (words_min hf).2
      · rw [he] at hf; obtain ⟨v, _, rfl⟩ := hf; rfl
    · rcases ht.entry p hp with ⟨he, _⟩ | ⟨_, _, h, _⟩ | ⟨he, _⟩ | ⟨_, _, h, _⟩
      · rw [he] at hf hf'; exact (limits_fun hf hf').2
      · exact absurd hn h
      · rw [he] at hf hf'
        obtain ⟨v, hv, rfl⟩ := hf
        obtain ⟨v', hv', rfl⟩ := hf'
        exact congrArg some (fun_number args 0 _ _ hv hv')
      · exact absurd hn h
  have e3 : strip b = strip b' := by
    refine part_same strip rest ht.names (fun p hp hn args a b hf => ?_) (fun p hp hn args a b a' b' ha hf hf' => ?_) h3 h h'
    · rcases ht.entry p hp with ⟨he, _⟩ | ⟨he, _⟩ | ⟨he, _⟩ | ⟨_, _, _, h⟩
      · rw [he] at hf; obtain ⟨x, y, l, u, _, _, _, rfl⟩ := hf; rfl
      · rw [he] at hf; obtain ⟨v, _, rfl⟩ := hf; rfl
      · rw [he] at hf; obtain ⟨v, _, rfl⟩ := hf; rfl
      · exact absurd h hn
    · rcases ht.entry p hp with ⟨_, _, _, h⟩ | ⟨_, _, _, h⟩ | ⟨_, _, _, h⟩ | ⟨he | he, _⟩
      · exact absurd hn h
      · exact absurd hn h
      · exact absurd hn h
      · rw [he] at hf hf'
        have h1 := words_strip hf
        have h2 := words_strip hf'
        rw [← ha] at h2
        exact fun_scale args _ _ _ h1 h2
      · rw [he] at hf hf'
        obtain ⟨v, hv, rfl⟩ := hf
        obtain ⟨v', hv', rfl⟩ := hf'
        have hv := fun_number args 0 _ _ hv hv'
        subst hv
        simp only [strip, Scale.mk.injEq] at ha ⊢
        simp only [ha, and_self]
  cases b; cases b'
  simp only [strip, Scale.mk.injEq] at e1 e2 e3 ⊢
  simp only [e1, e2, e3, and_self]

/-! ## Strokes -/

def noColor (k : StrokeState) : StrokeState := { k with color := .black }

/-- An option for a stroke that is not about its colour. -/
def Plain (f : Effect StrokeState) : Prop := ∀ args a b, f args a b → b.color = a.color ∧
  ∀ a' b', noColor a = noColor a' → f args a' b' → noColor b = noColor b'

theorem stroke_same {t : List (String × Effect StrokeState)} {color rest : List String} (hn : (t.map (·.1)).Nodup)
    (ht : ∀ p ∈ t, (p.1 ∈ color ∧ p.1 ∉ rest ∧ p.2 = Options.strokeColor E) ∨ (p.1 ∉ color ∧ p.1 ∈ rest ∧ Plain p.2))
    {cs cs' : List Expr} (h1 : cs.filter (named color) = cs'.filter (named color))
    (h2 : cs.filter (named rest) = cs'.filter (named rest)) {a b b' : StrokeState} (h : Acts t cs a b) (h' : Acts t cs' a b') :
    b = b' := by
  have e1 : b.color = b'.color := by
    refine part_same (·.color) color hn (fun p hp hc args a b hf => ?_) (fun p hp hc args a b a' b' ha hf hf' => ?_) h1 h h'
    · rcases ht p hp with ⟨h, _⟩ | ⟨_, _, he⟩
      · exact absurd h hc
      · exact (he _ _ _ hf).1
    · rcases ht p hp with ⟨_, _, he⟩ | ⟨h, _⟩
      · rw [he] at hf hf'
        obtain ⟨v, hv, rfl⟩ := hf
        obtain ⟨v', hv', rfl⟩ := hf'
        exact fun_color args .black _ _ hv hv'
      · exact absurd hc h
  have e2 : noColor b = noColor b' := by
    refine part_same noColor rest hn (fun p hp hc args a b hf => ?_) (fun p hp hc args a b a' b' ha hf hf' => ?_) h2 h h'
    · rcases ht p hp with ⟨_, _, he⟩ | ⟨_, h, _⟩
      · rw [he] at hf; obtain ⟨v, _, rfl⟩ := hf; rfl
      · exact absurd h hc
    · rcases ht p hp with ⟨_, h, _⟩ | ⟨_, _, he⟩
      · exact absurd hc h
      · exact (he _ _ _ hf).2 _ _ ha hf'
  cases b; cases b'
  simp only [noColor, StrokeState.mk.injEq] at e1 e2 ⊢
  simp only [e1, e2, and_self]

theorem plain_width : Plain (Options.strokeWidth E) := by
  rintro args a b ⟨v, hv, rfl⟩
  refine ⟨rfl, ?_⟩
  rintro a' b' ha ⟨v', hv', rfl⟩
  rw [fun_size args 0 _ _ hv hv']
  simp only [noColor, StrokeState.mk.injEq] at ha ⊢
  simp only [ha, and_self]

theorem plain_border : Plain BorderStyle := by
  rintro args a b (⟨h, rfl⟩ | ⟨h, rfl⟩)
  · refine ⟨rfl, ?_⟩
    rintro a' b' ha (⟨_, rfl⟩ | ⟨h', _⟩)
    · simp only [noColor, StrokeState.mk.injEq] at ha ⊢
      simp only [ha, and_self]
    · exact absurd h h'
  · refine ⟨rfl, ?_⟩
    rintro a' b' ha (⟨h', _⟩ | ⟨_, rfl⟩)
    · exact absurd h' h
    · exact ha

theorem dash_rel {cmds : List Expr} {a b : StrokeState} (h : Executed (dashStyleTable E) cmds a b) :
    b.color = a.color ∧ ∀ a' b', noColor a = noColor a' → Executed (dashStyleTable E) cmds a' b' → noColor b = noColor b' := by
  induction h with
  | nil s => exact ⟨rfl, fun a' b' ha h => by cases h; exact ha⟩
  | @cons n args rest s s₁ s' hd hn hf hr _ ih =>
    unfold dashStyleTable at hf
    split_ifs at hf with h1 h2
    · cases hf
      obtain ⟨v, hv, rfl⟩ := field_ok.1 hr
      refine ⟨ih.1, ?_⟩
      intro a' b' ha h
      cases h with
      | @cons _ _ _ _ s₂ _ hd' hn' hf' hr' he' =>
        unfold dashStyleTable at hf'
        rw [if_pos h1] at hf'
        cases hf'
        obtain ⟨v', hv', rfl⟩ := field_ok.1 hr'
        rw [hv] at hv'; cases hv'
        refine ih.2 _ _ ?_ he'
        simp only [noColor, StrokeState.mk.injEq] at ha ⊢
        simp only [ha, and_self]
    · cases hf
      obtain ⟨v, hv, rfl⟩ := field_ok.1 hr
      refine ⟨ih.1, ?_⟩
      intro a' b' ha h
      cases h with
      | @cons _ _ _ _ s₂ _ hd' hn' hf' hr' he' =>
        unfold dashStyleTable at hf'
        rw [if_neg h1, if_pos h2] at hf'
        cases hf'
        obtain ⟨v', hv', rfl⟩ := field_ok.1 hr'
        rw [hv] at hv'; cases hv'
        refine ih.2 _ _ ?_ he'
        simp only [noColor, StrokeState.mk.injEq] at ha ⊢
        simp only [ha, and_self]

theorem plain_dash : Plain (ran (readDashStyle E)) := by
  intro args a b h
  have h := dash_rel ((walkRead_ok _ _ _ _).1 h)
  refine ⟨h.1, fun a' b' ha h' => h.2 _ _ ?_ ((walkRead_ok _ _ _ _).1 h')⟩
  simp only [noColor, StrokeState.mk.injEq] at ha ⊢
  simp only [ha, and_self]

theorem plain_style : Plain (ran (readStrokeStyle E)) := by
  intro args a b h
  unfold ran readStrokeStyle at h
  unfold ran readStrokeStyle
  split_ifs at h ⊢ with h1 h2 h3
  · cases h
    refine ⟨rfl, fun a' b' ha h' => ?_⟩
    cases h'
    simp only [noColor, StrokeState.mk.injEq] at ha ⊢
    simp only [ha, and_self]
  · cases h
    refine ⟨rfl, fun a' b' ha h' => ?_⟩
    cases h'
    simp only [noColor, StrokeState.mk.injEq] at ha ⊢
    simp only [ha, and_self]
  · exact plain_dash _ _ _ h
  · cases h4 : isCall args ['d', 'a', 's', 'h'] with
    | some as => simp only [h4] at h ⊢; exact plain_dash _ _ _ h
    | none =>
      simp only [h4] at h ⊢
      cases h5 : isCall args ['d', 'a', 's', 'h', 'e', 'd'] with
      | some as => simp only [h5] at h ⊢; exact plain_dash _ _ _ h
      | none => simp only [h5] at h; cases h

theorem fun_fillColor : Fun (Options.fillColor E) := by
  rintro args a b b' ⟨c, h, rfl⟩ ⟨c', h', rfl⟩
  rw [fun_color args .black _ _ h h']

theorem fun_fillStyle (hp : E.palette ≠ []) : Fun (Options.fillStyle E) := fun args a b b' h h' => by
  have h := (C79_fill_partial E hp _ _ _).2 h
  rw [(C79_fill_partial E hp _ _ _).2 h'] at h
  cases h; rfl

end Clip.Reorder
