import Verif.Spec.Options
import Verif.Lemmas.Plot
import Verif.Props.Placement
import Verif.Props.StyleOld
import Verif.Props.Draw
set_option linter.unusedSimpArgs false
/-! The options of the plot elements: from tables of handlers to the effects of options. -/
namespace Clip
open Commands Settings Pictures Drawing Options
variable {σ α β : Type}

/-- A handler that succeeds has this effect on the setting. -/
def EffectOf (get : σ → α) (f : Effect α) (h : Handler σ Fail) : Prop :=
  ∀ args s s₁, h args s = (s₁, none) → f args (get s) (get s₁)

/-- A handler that succeeds leaves the setting alone. -/
def Keeps (get : σ → α) (h : Handler σ Fail) : Prop := ∀ args s s₁, h args s = (s₁, none) → get s₁ = get s

theorem acts_of_executed {opts : List (String × Handler σ Fail)} {get : σ → α} {t : List (String × Effect α)}
    (h : ∀ p ∈ opts, (∃ f, (p.1, f) ∈ t ∧ EffectOf get f p.2) ∨ ((∀ q ∈ t, q.1 ≠ p.1) ∧ Keeps get p.2))
    {cmds : List Expr} {s s' : σ} (he : Executed (optTable opts) cmds s s') : Acts t cmds (get s) (get s') := by
  induction he with
  | nil s => exact .nil _
  | @cons n args rest s s₁ s' hd hn hf hr _ ih =>
    obtain ⟨p, hp, hpn, rfl⟩ := optTable_some hf
    rcases h p hp with ⟨f, hmem, heff⟩ | ⟨hno, hk⟩
    · exact .act (by rw [nameOf_isValue hn, hpn]) hmem (heff _ _ _ hr) ih
    · refine .skip ?_ (hk _ _ _ hr ▸ ih)
      intro q hq hne
      rw [nameOf_isValue hn, ← hpn] at hne
      exact hno q hq (String.toList_inj.1 (Option.some.inj hne).symm)

theorem last_of_executed {opts : List (String × Handler σ Fail)} {get : σ → α} {R : List Expr → α → Prop}
    {names : List String}
    (h : ∀ p ∈ opts, (∃ f, (p.1, f) ∈ (names.map fun n => (n, sets R)) ∧ EffectOf get f p.2) ∨
      ((∀ q ∈ (names.map fun n => (n, sets R)), q.1 ≠ p.1) ∧ Keeps get p.2))
    {cmds : List Expr} {s s' : σ} (he : Executed (optTable opts) cmds s s') : LastOf R names cmds (get s) (get s') :=
  acts_of_executed h he

theorem known_of_executed {opts : List (String × Handler σ Fail)} {names : List String}
    (h : ∀ p ∈ opts, p.1 ∈ names) {cmds : List Expr} {s s' : σ} (he : Executed (optTable opts) cmds s s') :
    Known names cmds := by
  induction he with
  | nil s => intro c hc; simp at hc
  | @cons n args rest s s₁ s' hd hn hf hr _ ih =>
    intro c hc
    rcases List.mem_cons.1 hc with rfl | hc
    · obtain ⟨p, hp, hpn, rfl⟩ := optTable_some hf
      exact ⟨p.1, h p hp, by rw [nameOf_isValue hn, hpn]⟩
    · exact ih c hc

theorem kept_of_executed {opts : List (String × Handler σ Fail)} {get : σ → α} (h : ∀ p ∈ opts, Keeps get p.2)
    {cmds : List Expr} {s s' : σ} (he : Executed (optTable opts) cmds s s') : get s' = get s := by
  induction he with
  | nil s => rfl
  | @cons n args rest s s₁ s' hd hn hf hr _ ih =>
    obtain ⟨p, hp, hpn, rfl⟩ := optTable_some hf
    rw [ih, h p hp _ _ _ hr]

/-! ## Composition -/

theorem keeps_field {get : σ → β} {read : List Expr → σ → Except Fail α} {put : σ → α → σ}
    (h : ∀ s v, get (put s v) = get s) : Keeps get (field read put) := by
  intro args s s₁ he
  obtain ⟨v, _, rfl⟩ := field_ok.1 he
  exact h _ _

theorem keeps_part {get : σ → β} {g : σ → α} {put : σ → α → σ} {hd : Handler α Fail}
    (h : ∀ s v, get (put s v) = get s) : Keeps get (onPart g put hd) := by
  intro args s s₁ he
  obtain ⟨a, _, rfl⟩ := onPart_ok.1 he
  exact h _ _

theorem keeps_inner {get : σ → β} {g : σ → α} {put : σ → α → σ} {hd : Handler α Fail} (G : α → β)
    (h : ∀ s v, get (put s v) = G v) (h' : ∀ s, get s = G (g s)) (hk : Keeps G hd) : Keeps get (onPart g put hd) := by
  intro args s s₁ he
  obtain ⟨a, ha, rfl⟩ := onPart_ok.1 he
  rw [h, h', hk _ _ _ ha]

theorem callAll_cons {hd : Handler σ Fail} {hs : List (Handler σ Fail)} {args : List Expr} {s s₁ : σ} :
    callAll (hd :: hs) args s = (s₁, none) ↔ ∃ s', hd args s = (s', none) ∧ callAll hs args s' = (s₁, none) := by
  unfold callAll
  simp only [List.map_cons, tryChain]
  cases hr : hd args s with
  | mk s' o =>
    cases o with
    | none => simp
    | some f => simp

theorem callAll_nil {args : List Expr} {s : σ} : callAll ([] : List (Handler σ Fail)) args s = (s, none) := rfl

theorem keeps_nil {get : σ → β} : Keeps get (callAll ([] : List (Handler σ Fail))) := by
  intro args s s₁ he
  rw [callAll_nil] at he
  cases he; rfl

theorem keeps_cons {get : σ → β} {hd : Handler σ Fail} {hs : List (Handler σ Fail)} (h1 : Keeps get hd)
    (h2 : Keeps get (callAll hs)) : Keeps get (callAll (hd :: hs)) := by
  intro args s s₁ he
  obtain ⟨s', ha, hb⟩ := callAll_cons.1 he
  rw [h2 _ _ _ hb, h1 _ _ _ ha]

theorem effect_here {get : σ → α} {f : Effect α} {hd : Handler σ Fail} {hs : List (Handler σ Fail)}
    (h1 : EffectOf get f hd) (h2 : Keeps get (callAll hs)) : EffectOf get f (callAll (hd :: hs)) := by
  intro args s s₁ he
  obtain ⟨s', ha, hb⟩ := callAll_cons.1 he
  rw [h2 _ _ _ hb]
  exact h1 _ _ _ ha

theorem effect_there {get : σ → α} {f : Effect α} {hd : Handler σ Fail} {hs : List (Handler σ Fail)}
    (h1 : Keeps get hd) (h2 : EffectOf get f (callAll hs)) : EffectOf get f (callAll (hd :: hs)) := by
  intro args s s₁ he
  obtain ⟨s', ha, hb⟩ := callAll_cons.1 he
  rw [← h1 _ _ _ ha]
  exact h2 _ _ _ hb

theorem effect_part {get : σ → β} {f : Effect β} {g : σ → α} {put : σ → α → σ} {hd : Handler α Fail} (G : α → β)
    (h : ∀ s v, get (put s v) = G v) (h' : ∀ s, get s = G (g s)) (hk : EffectOf G f hd) :
    EffectOf get f (onPart g put hd) := by
  intro args s s₁ he
  obtain ⟨a, ha, rfl⟩ := onPart_ok.1 he
  rw [h, h']
  exact hk _ _ _ ha

theorem effect_field {get : σ → β} {f : Effect β} {read : List Expr → σ → Except Fail α} {put : σ → α → σ}
    (h : ∀ args s v, read args s = .ok v → f args (get s) (get (put s v))) : EffectOf get f (field read put) := by
  intro args s s₁ he
  obtain ⟨v, hv, rfl⟩ := field_ok.1 he
  exact h _ _ _ hv

/-! ## Readers -/

variable {φ : Type} {P : PlotEnv φ} {E : ReadEnv}

theorem readString_ok {args : List Expr} {t : Str} : readString args = .ok t ↔ IsText args t := by
  unfold readString IsText
  cases args with
  | nil => simp [exprToString]
  | cons e rest =>
    cases e <;> simp [exprToString, Expr.isValue, Expr.getValue, eq_comm]

theorem plotFont_ok {args : List Expr} {f : φ} :
    readFont P.text args = .ok f ↔ ∃ t, IsText args t ∧ P.text.loadFont t = some f := by
  unfold readFont IsText
  cases args with
  | nil => simp [exprToString]
  | cons e rest =>
    cases e with
    | list l => simp [exprToString, Expr.isValue]
    | literal w => cases h : P.text.loadFont w <;> simp [exprToString, Expr.isValue, Expr.getValue, h]
    | value w => cases h : P.text.loadFont w <;> simp [exprToString, Expr.isValue, Expr.getValue, h]

theorem readMeasure_ok {args : List Expr} {m : Measure} : readMeasure P.stod args = .ok m ↔ IsMeasure P args m := by
  unfold readMeasure IsMeasure IsText
  cases args with
  | nil => simp
  | cons e rest =>
    cases e with
    | list l => simp [Expr.isValue]
    | literal w => cases h : parseMeasure P.stod w <;> simp [Expr.isValue, Expr.getValue, h]
    | value w => cases h : parseMeasure P.stod w <;> simp [Expr.isValue, Expr.getValue, h]

theorem loadStrings_ok {args : List Expr} {a b : List Str} : loadStrings P.readFile args a = .ok b ↔ Texts P args a b := by
  unfold loadStrings Texts
  by_cases hc : exprIsListHead args "csv".toList = true
  · rw [if_pos hc]
    simp only [hc, Bool.true_eq_false, false_and, true_and, false_or]
    rcases dataLoadCsvColumn P.readFile (exprListTail args) with ⟨vs, _ | _ | _ | _⟩ <;> simp [eq_comm]
  · rw [if_neg hc]
    have hf : exprIsListHead args "csv".toList = false := by simpa using hc
    simp only [hf, true_and, Bool.false_eq_true, false_and, or_false]
    cases exprToStrings args <;> simp

theorem failOf_none {ε γ : Type} {e : ReadErr} {o : Outcome ε γ} : failOf e o = none ↔ ∃ v, o = .ok v := by
  cases o <;> simp [failOf]

theorem loadSimple_ok {args : List Expr} {a b : DataBuffer (Option ℝ)} :
    loadSimple P.readFile args a = (b, none) ↔ AddData P args a b := by
  unfold loadSimple AddData
  rcases dataLoadSimple P.readFile args with ⟨vs, _ | _ | _ | _⟩ <;> simp [failOf, eq_comm]

theorem userMeasures_ok {vs : List Str} {ms : List Measure} : userMeasures P.stod vs = some ms ↔
    ∃ ns, List.Forall₂ (fun v (n : ℝ) => ∃ k, P.stod v = some (n, k)) vs ns ∧ ms = ns.map fun n => ⟨.user, n⟩ := by
  induction vs generalizing ms with
  | nil => simp [userMeasures, eq_comm]
  | cons v vs ih =>
    simp only [userMeasures]
    cases hv : P.stod v with
    | none => simp [hv, List.forall₂_cons_left_iff]
    | some xk =>
      obtain ⟨x, k⟩ := xk
      simp only [Option.map_eq_some_iff]
      constructor
      · rintro ⟨ms', h, rfl⟩
        obtain ⟨ns, hns, rfl⟩ := ih.1 h
        exact ⟨x :: ns, .cons ⟨k, hv⟩ hns, by simp⟩
      · rintro ⟨ns, hns, rfl⟩
        cases hns with
        | @cons _ n _ ns hn hns =>
          obtain ⟨k', hk⟩ := hn
          rw [hv] at hk
          cases hk
          exact ⟨_, ih.2 ⟨ns, hns, rfl⟩, by simp⟩

theorem loadMeasures_ok {args : List Expr} {a b : List Measure} :
    loadMeasures P.stod P.readFile args a = (b, none) ↔ AddLengths P args a b := by
  unfold AddLengths
  have hbad : ∀ l rest, readEach (readMeasure P.stod) (.list l :: rest) = .error (.error .expectedValue) := by
    intro l rest
    simp [readEach, readMeasure, Expr.isValue]
  constructor
  · intro h
    unfold loadMeasures at h
    split at h
    · rename_i w es rest
      split at h
      · rename_i hw
        subst hw
        split at h
        · rename_i vs u hvs
          split at h
          · rename_i ms hms
            obtain ⟨ns, hns, rfl⟩ := userMeasures_ok.1 hms
            simp only [Prod.mk.injEq, and_true] at h
            exact ⟨es, rest, vs, ns, rfl, hvs, hns, h.symm⟩
          · simp at h
        · rename_i vs o hno _
          exfalso
          have h2 := (Prod.mk.inj h).2
          obtain ⟨v, rfl⟩ := failOf_none.1 h2
          exact hno _ rfl
      · rw [hbad] at h; simp at h
    · rw [hbad] at h; simp at h
    · simp at h
  · rintro ⟨es, rest, vs, ns, rfl, hvs, hns, rfl⟩
    unfold loadMeasures
    simp only [if_true, hvs]
    rw [userMeasures_ok.2 ⟨ns, hns, rfl⟩]

/-! ## Effects of single options -/

theorem eff_color (hp : E.palette ≠ []) : EffectOf id (sets (IsColor E)) (colorVar E) :=
  effect_field fun _ _ _ h => (readColor_ok hp _ _ _).1 h

theorem eff_size : EffectOf id (sets (IsSize E)) (sizeVar E) := effect_field fun _ _ _ h => readSize_ok.1 h

theorem eff_number : EffectOf id (sets (IsNumber E)) (floatVar E) := effect_field fun _ _ _ h => readFloat_ok.1 h

theorem eff_measure : EffectOf id (sets (IsMeasure P)) (measureVar P) := effect_field fun _ _ _ h => readMeasure_ok.1 h

theorem eff_texts : EffectOf id (Texts P) (stringsVar P) := by
  intro args s s₁ h
  unfold stringsVar at h
  split at h
  · rename_i vs hvs
    cases h
    exact loadStrings_ok.1 hvs
  · cases h

theorem eff_data : EffectOf id (AddData P) (loadSimple P.readFile) := fun _ _ _ h => loadSimple_ok.1 h

theorem eff_lengths : EffectOf id (AddLengths P) (loadMeasures P.stod P.readFile) := fun _ _ _ h => loadMeasures_ok.1 h

theorem eff_polys : EffectOf id (AddPolys P) (loadPolys P) := by
  intro args s s₁ h
  unfold loadPolys at h
  split at h
  · rename_i w es rest
    split at h
    · rename_i hw
      subst hw
      split at h
      · rename_i e as
        split at h
        · rename_i hv
          simp only [Prod.mk.injEq] at h
          obtain ⟨rfl, h2⟩ := h
          obtain ⟨v, hv2⟩ := failOf_none.1 h2
          cases e with
          | list l => simp [Expr.isValue] at hv
          | literal f => exact ⟨.literal f, f, as, rest, _, rfl, .inl rfl, Prod.ext rfl hv2, rfl⟩
          | value f => exact ⟨.value f, f, as, rest, _, rfl, .inr rfl, Prod.ext rfl hv2, rfl⟩
        · simp at h
      · simp at h
    · simp at h
  · simp at h
  · simp at h

theorem eff_strokeColor (hp : E.palette ≠ []) : EffectOf id (Options.strokeColor E) (Clip.strokeColor E) :=
  effect_field fun _ _ v h => ⟨v, (readColor_ok hp _ _ _).1 h, rfl⟩

theorem eff_strokeWidth : EffectOf id (Options.strokeWidth E) (Clip.strokeWidth E) :=
  effect_field fun _ _ v h => ⟨v, readSize_ok.1 h, rfl⟩

theorem readDash_dashed {args : List Expr} {k k' : StrokeState} (h : readDashStyle E args k = (k', none)) :
    k'.dashed = true := by
  have hx := (walkRead_ok _ _ _ _).1 h
  have : ∀ {cs : List Expr} {a b : StrokeState}, Executed (dashStyleTable E) cs a b → b.dashed = a.dashed := by
    intro cs a b hx
    induction hx with
    | nil => rfl
    | cons hn hh hr _ ih =>
      rw [ih]
      unfold dashStyleTable at hh
      split at hh
      · cases hh
        unfold field at hr
        split at hr
        · have e := congrArg StrokeState.dashed (Prod.mk.inj hr).1; exact e.symm
        · cases (Prod.mk.inj hr).2
      · split at hh
        · cases hh
          unfold field at hr
          split at hr
          · have e := congrArg StrokeState.dashed (Prod.mk.inj hr).1; exact e.symm
          · cases (Prod.mk.inj hr).2
        · cases hh
  exact this hx

theorem eff_strokeStyle : EffectOf id (Options.strokeStyle E) (readStrokeStyle E) := by
  intro args k k' h
  refine ⟨(C79_stroke_partial E args k _).1 ⟨k', h, rfl⟩, fun hd => ?_⟩
  show k'.offset.value = k.offset.value
  have hd : k'.dashed = false := hd
  have no : ∀ {as}, readDashStyle E as k ≠ (k', none) := by
    intro as he
    rw [readDash_dashed he] at hd
    cases hd
  unfold readStrokeStyle at h
  split at h
  · cases h; rfl
  · split at h
    · cases h; rfl
    · split at h
      · exact absurd h no
      · split at h
        · exact absurd h no
        · split at h
          · exact absurd h no
          · cases h

theorem eff_fillStyle (hp : E.palette ≠ []) : EffectOf id (Options.fillStyle E) (readFillStyle E) :=
  fun args f f' h => (C79_fill_partial E hp args f f').1 h

theorem eff_fillColor (hp : E.palette ≠ []) : EffectOf id (Options.fillColor E) (readFillStyleSolid E) :=
  effect_field fun _ _ v h => ⟨v, (readColor_ok hp _ _ _).1 h, rfl⟩

theorem eff_font {get : σ → List φ} {put : σ → φ → σ} (h : ∀ s f, get (put s f) = f :: get s) :
    EffectOf get (AddFont P) (field (fun args _ => readFont P.text args) put) :=
  effect_field fun args s v hv => by
    obtain ⟨t, ht, hf⟩ := plotFont_ok.1 hv
    exact ⟨t, v, ht, hf, h _ _⟩

theorem eff_string {get : σ → Str} {put : σ → Str → σ} (h : ∀ s f, get (put s f) = f) :
    EffectOf get (sets IsText) (field (fun args _ => readString args) put) :=
  effect_field fun args s v hv => by
    show IsText args _
    rw [h]; exact readString_ok.1 hv

theorem eff_marker {get : σ → Marker} {put : σ → Marker → σ} (h : ∀ s f, get (put s f) = f) :
    EffectOf get (sets fun args m => readMarker E args = .ok m) (field (fun args _ => readMarker E args) put) :=
  effect_field fun args s v hv => by show readMarker E args = .ok _; rw [h, hv]

theorem eff_markers {get : σ → List Marker} {put : σ → List Marker → σ} (h : ∀ s f, get (put s f) = f) :
    EffectOf get (sets fun args m => readMarkers E args = .ok m) (field (fun args _ => readMarkers E args) put) :=
  effect_field fun args s v hv => by show readMarkers E args = .ok _; rw [h, hv]

theorem eff_placement {get : σ → Option TickSpec} {put : σ → TickSpec → σ} (h : ∀ s f, get (put s f) = some f) :
    EffectOf get (sets (IsPlacement P)) (field (fun args _ => scaleConfigureLayout P.stod args) put) :=
  effect_field fun args s v hv => ⟨v, (C92_placement _ _ _).1 hv, h _ _⟩

theorem eff_colorMap {get : σ → Option (MapKind × List (ℝ × Color))} {put : σ → MapKind × List (ℝ × Color) → σ}
    (h : ∀ s f, get (put s f) = some f) :
    EffectOf get (sets fun args v => ∃ m, readColorMap E args = .ok m ∧ v = some m)
      (field (fun args _ => readColorMap E args) put) :=
  effect_field fun args s v hv => ⟨v, hv, h _ _⟩

theorem eff_sizeMap {get : σ → Option (Measure × Measure)} {put : σ → Measure × Measure → σ}
    (h : ∀ s f, get (put s f) = some f) :
    EffectOf get (sets fun args v => ∃ m, readSizeMap E args = .ok m ∧ v = some m)
      (field (fun args _ => readSizeMap E args) put) :=
  effect_field fun args s v hv => ⟨v, hv, h _ _⟩

theorem eff_enum {γ : Type} {get : σ → γ} {put : σ → γ → σ} {defs : Str → Option γ} {words : List (String × γ)}
    (hd : ∀ w v, defs w = some v → ∃ x, x.toList = w ∧ (x, v) ∈ words) (h : ∀ s f, get (put s f) = f) :
    EffectOf get (sets (IsOneOf words)) (field (fun args _ => readEnum defs args) put) :=
  effect_field fun args s v hv => by
    obtain ⟨w, rest, hw, hv⟩ := (C80_enum _ _ _).1 hv
    obtain ⟨x, rfl, hx⟩ := hd w v hv
    show IsOneOf words args _
    rw [h]
    exact ⟨x, ⟨rest, hw⟩, hx⟩

theorem direction_words (w : Str) (v : Direction) (h : (if w = "horizontal".toList then some Direction.horizontal
    else if w = "vertical".toList then some .vertical else none) = some v) :
    ∃ x : String, x.toList = w ∧ (x, v) ∈ [("horizontal", Direction.horizontal), ("vertical", .vertical)] := by
  split at h
  · rename_i hw; cases h; exact ⟨"horizontal", hw.symm, by simp⟩
  · split at h
    · rename_i hw; cases h; exact ⟨"vertical", hw.symm, by simp⟩
    · cases h

theorem eff_direction {get : σ → Direction} {put : σ → Direction → σ} (h : ∀ s f, get (put s f) = f) :
    EffectOf get (sets (IsOneOf [("horizontal", .horizontal), ("vertical", .vertical)]))
      (field (fun args _ => readDirection args) put) := eff_enum direction_words h

/-! ## Scales -/

theorem eff_limits : EffectOf id (scaleLimits E) (limitPair E) := by
  intro args s s₁ h
  unfold limitPair at h
  cases hr : readFloatPair E args (s.min, s.max) with
  | mk p o =>
    rw [hr] at h
    simp only [Prod.mk.injEq] at h
    obtain ⟨rfl, rfl⟩ := h
    obtain ⟨a, b, x, y, rfl, ha, hb, rfl⟩ := (C80_pair E args _ _).1 hr
    exact ⟨a, b, x, y, rfl, ha, hb, rfl⟩

theorem eff_minimum : EffectOf id (scaleMinimum E) (limitMin E) := effect_field fun _ _ v h => ⟨v, readFloat_ok.1 h, rfl⟩

theorem eff_maximum : EffectOf id (scaleMaximum E) (limitMax E) := effect_field fun _ _ v h => ⟨v, readFloat_ok.1 h, rfl⟩

theorem eff_pad : EffectOf id (scalePad E) (scalePadding E) := effect_field fun _ _ v h => ⟨v, readFloat_ok.1 h, rfl⟩

theorem wordIn {e : Expr} {w : String} : isWord [e] w.toList = true ↔ IsWord e w := by
  rw [isWord_iff]; rfl

theorem callIn {e : Expr} {w : String} {as : List Expr} :
    isCall [e] w.toList = some as ↔ ∃ k, IsWord k w ∧ e = .list (k :: as) := by
  rw [isCall_some]
  constructor
  · rintro ⟨k, rest, he, hk⟩
    cases he
    exact ⟨k, hk, rfl⟩
  · rintro ⟨k, hk, rfl⟩
    exact ⟨k, [], rfl, hk⟩

theorem eff_scale : EffectOf id (ScaleWords P) (fun args s => scaleConfigureKind P.stod P.readFile args s) := by
  intro args
  induction args with
  | nil => intro s s₁ h; simp only [scaleConfigureKind] at h; cases h; exact .nil _
  | cons e es ih =>
    intro s s₁ h
    simp only [scaleConfigureKind] at h
    split at h
    · rename_i hw
      exact .cons (.linear (wordIn.1 hw)) (ih _ _ h)
    · split at h
      · rename_i hw
        refine .cons (.log ?_) (ih _ _ h)
        rw [Bool.or_eq_true] at hw
        exact hw.imp wordIn.1 wordIn.1
      · split at h
        · rename_i as hc
          split at h
          · cases h
          · rename_i a as
            split at h
            · cases h
            · rename_i b hb
              have hk : ∃ k, (IsWord k "log" ∨ IsWord k "logarithmic") ∧ e = .list (k :: a :: as) := by
                cases h1 : isCall [e] "log".toList with
                | some bs =>
                  rw [h1] at hc
                  simp only [Option.orElse_some, Option.some.injEq] at hc
                  subst hc
                  obtain ⟨k, hk, he⟩ := callIn.1 h1
                  exact ⟨k, .inl hk, he⟩
                | none =>
                  rw [h1] at hc
                  simp only [Option.orElse_none] at hc
                  obtain ⟨k, hk, he⟩ := callIn.1 hc
                  exact ⟨k, .inr hk, he⟩
              obtain ⟨k, hk, rfl⟩ := hk
              exact .cons (.logBase hk hb) (ih _ _ h)
        · split at h
          · rename_i hw
            refine .cons (.invert ?_) (ih _ _ h)
            rw [Bool.or_eq_true] at hw
            exact hw.imp wordIn.1 wordIn.1
          · split at h
            · rename_i hw
              have e12 : (0.5 : ℝ) = 1 / 2 := by norm_num
              rw [e12] at h
              exact .cons (.categorical (wordIn.1 hw)) (ih _ _ h)
            · split at h
              · rename_i as hc
                obtain ⟨k, hk, rfl⟩ := callIn.1 hc
                split at h
                · rename_i s' hs
                  have e12 : (0.5 : ℝ) = 1 / 2 := by norm_num
                  unfold setCategories at hs
                  simp only at hs
                  split at hs
                  · cases hs
                  · rename_i cats hcats
                    rw [e12] at hs
                    cases hs
                    exact .cons (.categories hk (loadStrings_ok.1 hcats)) (ih _ _ h)
                · cases h
              · cases h

/-! ## Tables of options -/

/-- Every option of the table has its effect on the setting, or is not listed and leaves the setting alone. -/
def Covers (opts : List (String × Handler σ Fail)) (get : σ → α) (t : List (String × Effect α)) : Prop :=
  ∀ p ∈ opts, (∃ f, (p.1, f) ∈ t ∧ EffectOf get f p.2) ∨ ((∀ q ∈ t, q.1 ≠ p.1) ∧ Keeps get p.2)

theorem covers_nil {get : σ → α} {t : List (String × Effect α)} : Covers [] get t := fun _ h => by simp at h

theorem covers_append {get : σ → α} {t : List (String × Effect α)} {l₁ l₂ : List (String × Handler σ Fail)}
    (h₁ : Covers l₁ get t) (h₂ : Covers l₂ get t) : Covers (l₁ ++ l₂) get t := fun p hp =>
  (List.mem_append.1 hp).elim (h₁ p) (h₂ p)

theorem covers_skip {get : σ → α} {t : List (String × Effect α)} {n : String} {h : Handler σ Fail}
    {l : List (String × Handler σ Fail)} (hn : ∀ q ∈ t, q.1 ≠ n) (hk : Keeps get h) (hl : Covers l get t) :
    Covers ((n, h) :: l) get t := fun p hp => by
  rcases List.mem_cons.1 hp with rfl | hp
  · exact .inr ⟨hn, hk⟩
  · exact hl p hp

theorem covers_act {get : σ → α} {t : List (String × Effect α)} {n : String} {h : Handler σ Fail}
    {l : List (String × Handler σ Fail)} (f : Effect α) (hn : (n, f) ∈ t) (hk : EffectOf get f h) (hl : Covers l get t) :
    Covers ((n, h) :: l) get t := fun p hp => by
  rcases List.mem_cons.1 hp with rfl | hp
  · exact .inl ⟨f, hn, hk⟩
  · exact hl p hp

theorem covers_out {β : Type} {get : σ → α} {t : List (String × Effect α)} {g : σ → β} {put : σ → β → σ}
    {l : List (String × Handler β Fail)} (h : ∀ s v, get (put s v) = get s) (hn : ∀ q ∈ t, ∀ p ∈ l, q.1 ≠ p.1) :
    Covers (liftOpts g put l) get t := fun p hp => by
  obtain ⟨q, hq, rfl⟩ := List.mem_map.1 hp
  exact .inr ⟨fun r hr => hn r hr q hq, keeps_part h⟩

theorem covers_in {β : Type} {get : σ → α} {t : List (String × Effect α)} {g : σ → β} {put : σ → β → σ}
    {l : List (String × Handler β Fail)} (G : β → α) (h : ∀ s v, get (put s v) = G v) (h' : ∀ s, get s = G (g s))
    (hl : Covers l G t) : Covers (liftOpts g put l) get t := fun p hp => by
  obtain ⟨q, hq, rfl⟩ := List.mem_map.1 hp
  rcases hl q hq with ⟨f, hf, he⟩ | ⟨hn, hk⟩
  · exact .inl ⟨f, hf, effect_part G h h' he⟩
  · exact .inr ⟨hn, keeps_inner G h h' hk⟩

end Clip
