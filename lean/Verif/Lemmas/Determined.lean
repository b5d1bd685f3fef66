import Verif.Props.Limits
import Verif.Props.ScaleWords
set_option linter.unusedSimpArgs false
/-!
# Options determine the settings
-/
namespace Clip
open Commands Settings Drawing Pictures Options
variable {φ : Type} {P : PlotEnv φ} {E : ReadEnv}

/-- An effect has one result. -/
def DetE {α : Type} (f : Effect α) : Prop := ∀ args a b b', f args a b → f args a b' → b = b'

/-- Related results for related values. -/
def RelE {α : Type} (R : α → α → Prop) (f : Effect α) : Prop :=
  ∀ args a a' b b', R a a' → f args a b → f args a' b' → R b b'

theorem acts_relE {α : Type} {R : α → α → Prop} {t : List (String × Effect α)} (hf : ∀ p ∈ t, RelE R p.2)
    (hk : ∀ p ∈ t, ∀ q ∈ t, p.1 = q.1 → p = q) {cmds : List Expr} {a a' b b' : α} (hR : R a a') (h : Acts t cmds a b)
    (h' : Acts t cmds a' b') : R b b' := by
  induction h generalizing a' with
  | nil a => cases h'; exact hR
  | act hn hm hb _ ih =>
    cases h' with
    | act hn' hm' hb' h'' =>
      have e := String.toList_inj.1 (Option.some.inj (hn.symm.trans hn'))
      have := hk _ hm _ hm' e
      cases this
      exact ih (hf _ hm _ _ _ _ _ hR hb hb') h''
    | skip hs _ => exact absurd hn (hs _ hm)
  | skip hs _ ih =>
    cases h' with
    | act hn' hm' _ _ => exact absurd hn' (hs _ hm')
    | skip _ h'' => exact ih hR h''

theorem relE_of_det {α : Type} {f : Effect α} (h : DetE f) : RelE Eq f := by
  intro args a a' b b' e h1 h2
  subst e
  exact h _ _ _ _ h1 h2

/-- For tables with concrete names. -/
theorem actsD {α : Type} {t : List (String × Effect α)} {cmds : List Expr} {a b b' : α} (h : Acts t cmds a b)
    (h' : Acts t cmds a b') (hf : List.Forall (fun p => DetE p.2) t) (hk : (t.map (·.1)).Nodup) : b = b' := by
  refine acts_relE (R := Eq) (fun p hp => relE_of_det (List.forall_iff_forall_mem.1 hf p hp)) ?_ rfl h h'
  intro p hp q hq e
  exact (List.inj_on_of_nodup_map hk) hp hq e

theorem lastD {α : Type} {R : List Expr → α → Prop} {names : List String} {cmds : List Expr} {a b b' : α}
    (h : LastOf R names cmds a b) (h' : LastOf R names cmds a b') (hR : ∀ args b b', R args b → R args b' → b = b') : b = b' :=
  lastOf_det hR h h'

theorem ok_det {ε α : Type} {x : Except ε α} {a b : α} (h : x = .ok a) (h' : x = .ok b) : a = b :=
  Except.ok.inj (h.symm.trans h')

theorem det_color (hp : E.palette ≠ []) (args : List Expr) (b b' : Color) (h : IsColor E args b) (h' : IsColor E args b') :
    b = b' := ok_det ((readColor_ok hp .black args b).2 h) ((readColor_ok hp .black args b').2 h')

theorem det_size (args : List Expr) (b b' : ℝ) (h : IsSize E args b) (h' : IsSize E args b') : b = b' :=
  ok_det (readSize_ok.2 h) (readSize_ok.2 h')

theorem det_number (args : List Expr) (b b' : ℝ) (h : IsNumber E args b) (h' : IsNumber E args b') : b = b' :=
  ok_det (readFloat_ok.2 h) (readFloat_ok.2 h')

theorem det_measure (args : List Expr) (b b' : Measure) (h : IsMeasure P args b) (h' : IsMeasure P args b') : b = b' :=
  ok_det (readMeasure_ok.2 h) (readMeasure_ok.2 h')

theorem det_ok {ε α : Type} {f : List Expr → Except ε α} (args : List Expr) (b b' : α) (h : f args = .ok b)
    (h' : f args = .ok b') : b = b' := ok_det h h'

theorem det_some {ε α : Type} {f : List Expr → Except ε α} (args : List Expr) (b b' : Option α)
    (h : ∃ m, f args = .ok m ∧ b = some m) (h' : ∃ m, f args = .ok m ∧ b' = some m) : b = b' := by
  obtain ⟨m, h, rfl⟩ := h
  obtain ⟨m', h', rfl⟩ := h'
  rw [ok_det h h']

theorem det_placement (args : List Expr) (b b' : Option TickSpec) (h : IsPlacement P args b) (h' : IsPlacement P args b') :
    b = b' := by
  obtain ⟨m, h, rfl⟩ := h
  obtain ⟨m', h', rfl⟩ := h'
  rw [ok_det ((C92_placement _ _ _).2 h) ((C92_placement _ _ _).2 h')]

theorem det_oneOf {α : Type} {words : List (String × α)} (hk : (words.map (·.1)).Nodup) (args : List Expr) (b b' : α)
    (h : IsOneOf words args b) (h' : IsOneOf words args b') : b = b' := by
  obtain ⟨w, h1, h2⟩ := h
  obtain ⟨w', h1', h2'⟩ := h'
  have e := String.toList_inj.1 (isText_det h1 h1')
  subst e
  exact (Prod.mk.inj ((List.inj_on_of_nodup_map hk) h2 h2' rfl)).2

theorem detE_texts : DetE (Texts P) := fun _ _ _ _ h h' => ok_det (loadStrings_ok.2 h) (loadStrings_ok.2 h')

theorem detE_data : DetE (AddData P) := addData_det

theorem detE_polys : DetE (AddPolys P) := addPolys_det

theorem detE_lengths : DetE (AddLengths P) := fun _ _ _ _ h h' =>
  (Prod.mk.inj ((loadMeasures_ok.2 h).symm.trans (loadMeasures_ok.2 h'))).1

theorem detE_font : DetE (AddFont P) := by
  rintro args a b b' ⟨t, f, h1, h2, rfl⟩ ⟨t', f', h1', h2', rfl⟩
  rw [isText_det h1 h1', h2'] at h2
  cases h2
  rfl

theorem detE_words : DetE (ScaleWords P) := fun _ _ _ _ h h' =>
  (Prod.mk.inj (((C92_scale P _ _ _).2 h).symm.trans ((C92_scale P _ _ _).2 h'))).1

theorem detE_limits : DetE (scaleLimits E) := by
  rintro args a b b' ⟨x, y, lo, hi, rfl, h1, h2, rfl⟩ ⟨x', y', lo', hi', e, h1', h2', rfl⟩
  cases e
  rw [ok_det h1 h1', ok_det h2 h2']

theorem detE_minimum : DetE (scaleMinimum E) := by
  rintro args a b b' ⟨v, h, rfl⟩ ⟨v', h', rfl⟩
  rw [det_number _ _ _ h h']

theorem detE_maximum : DetE (scaleMaximum E) := by
  rintro args a b b' ⟨v, h, rfl⟩ ⟨v', h', rfl⟩
  rw [det_number _ _ _ h h']

theorem detE_pad : DetE (scalePad E) := by
  rintro args a b b' ⟨v, h, rfl⟩ ⟨v', h', rfl⟩
  rw [det_number _ _ _ h h']

theorem detE_fillStyle (hp : E.palette ≠ []) : DetE (Options.fillStyle E) := fun _ _ _ _ h h' =>
  (Prod.mk.inj (((C79_fill_partial E hp _ _ _).2 h).symm.trans ((C79_fill_partial E hp _ _ _).2 h'))).1

theorem detE_fillColor (hp : E.palette ≠ []) : DetE (Options.fillColor E) := by
  rintro args a b b' ⟨v, h, rfl⟩ ⟨v', h', rfl⟩
  rw [det_color hp _ _ _ h h']

/-! ## Strokes, up to the units of the lengths of dashes -/

/-- The same line, now and after later settings. -/
def Alike (k k' : StrokeState) : Prop := k.style = k'.style ∧ k.offset.value = k'.offset.value

theorem Alike.refl (k : StrokeState) : Alike k k := ⟨rfl, rfl⟩

theorem alike_iff {k k' : StrokeState} : Alike k k' ↔ k.width = k'.width ∧ k.color = k'.color ∧ k.dashed = k'.dashed ∧
    (k.dashed = true → k.pattern.map (·.value) = k'.pattern.map (·.value)) ∧ k.offset.value = k'.offset.value := by
  unfold Alike StrokeState.style
  obtain ⟨w, c, d, o, p⟩ := k
  obtain ⟨w', c', d', o', p'⟩ := k'
  cases d <;> cases d' <;> simp [and_assoc] <;> tauto

theorem relE_strokeColor (hp : E.palette ≠ []) : RelE Alike (Options.strokeColor E) := by
  rintro args a a' b b' hR ⟨v, h, rfl⟩ ⟨v', h', rfl⟩
  rw [alike_iff] at hR ⊢
  exact ⟨hR.1, det_color hp _ _ _ h h', hR.2.2⟩

theorem relE_strokeWidth : RelE Alike (Options.strokeWidth E) := by
  rintro args a a' b b' hR ⟨v, h, rfl⟩ ⟨v', h', rfl⟩
  rw [alike_iff] at hR ⊢
  exact ⟨det_size _ _ _ h h', hR.2⟩

theorem strokeStyle_unique {off : ℝ} {args : List Expr} {k t t' : StrokeStyle} {a : StrokeState} (ha : a.style = k)
    (ho : a.offset.value = off) (h : StrokeStyleMeans E 1 off args k t) (h' : StrokeStyleMeans E 1 off args k t') : t = t' := by
  subst ha ho
  obtain ⟨b, e1, e2⟩ := (C79_stroke_partial E args a t).2 h
  obtain ⟨b', e1', e2'⟩ := (C79_stroke_partial E args a t').2 h'
  rw [e1] at e1'
  cases e1'
  exact e2.symm.trans e2'

theorem dash_offset {k : StrokeState} (h : k.dashed = true) : k.style.dash = some (k.offset.value, k.pattern.map (·.value)) := by
  unfold StrokeState.style
  rw [h]; rfl

theorem dash_none {k : StrokeState} (h : k.dashed = false) : k.style.dash = none := by
  unfold StrokeState.style
  rw [h]; rfl

theorem relE_strokeStyle : RelE Alike (Options.strokeStyle E) := by
  rintro args a a' b b' ⟨hs, ho⟩ ⟨h, hd⟩ ⟨h', hd'⟩
  rw [← hs, ← ho] at h'
  have e := strokeStyle_unique (a := a) rfl rfl h h'
  refine ⟨e, ?_⟩
  cases hb : b.dashed with
  | false =>
    cases hb' : b'.dashed with
    | false => rw [hd hb, hd' hb', ho]
    | true =>
      have := dash_offset hb'
      rw [← e, dash_none hb] at this
      cases this
  | true =>
    have h1 := dash_offset hb
    cases hb' : b'.dashed with
    | false => rw [e, dash_none hb'] at h1; cases h1
    | true =>
      rw [e, dash_offset hb'] at h1
      exact (Prod.mk.inj (Option.some.inj h1)).1.symm

theorem actsR {t : List (String × Effect StrokeState)} {cmds : List Expr} {a b b' : StrokeState} (h : Acts t cmds a b)
    (h' : Acts t cmds a b') (hf : List.Forall (fun p => RelE Alike p.2) t) (hk : (t.map (·.1)).Nodup) : Alike b b' := by
  refine acts_relE (R := Alike) (fun p hp => List.forall_iff_forall_mem.1 hf p hp) ?_ (Alike.refl a) h h'
  intro p hp q hq e
  exact (List.inj_on_of_nodup_map hk) hp hq e

end Clip
