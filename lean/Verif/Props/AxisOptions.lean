import Verif.Spec.AxisOptions
import Verif.Props.OptionsMean
set_option linter.unusedSimpArgs false
set_option linter.unusedTactic false
/-!
# C90: the options of `axis` and `axes`
-/
namespace Clip
open Commands Settings Pictures Drawing Options
variable {φ : Type} {P : PlotEnv φ} {E : ReadEnv} {σ : Type}

/-! ## Readers -/

theorem readFormat_ok {args : List Expr} {f : FormatSpec} :
    readFormat P args = .ok f ↔ formatConfigure P.stod P.readFile args = .ok f := by
  unfold readFormat
  rcases formatConfigure P.stod P.readFile args with (_ | _) | _ <;> simp

theorem eff_format {get : σ → Option FormatSpec} {put : σ → FormatSpec → σ} (h : ∀ s f, get (put s f) = some f) :
    EffectOf get (sets (IsFormat P)) (field (fun args _ => readFormat P args) put) :=
  effect_field fun args s v hv => ⟨v, readFormat_ok.1 hv, h _ _⟩

theorem acc_format {put : σ → FormatSpec → σ} :
    Accepts (field (fun args _ => readFormat P args) put) (Has (IsFormat P)) :=
  accepts_field fun _ _ => ⟨fun ⟨v, h⟩ => ⟨some v, v, readFormat_ok.1 h, rfl⟩, fun ⟨_, v, h, _⟩ => ⟨v, readFormat_ok.2 h⟩⟩

/-- Words and their values, as the code and as the specification list them. -/
theorem enum_iff {α : Type} {defs : Str → Option α} {words : List (String × α)}
    (hd : ∀ w v, defs w = some v ↔ ∃ x, x.toList = w ∧ (x, v) ∈ words) {args : List Expr} {v : α} :
    readEnum defs args = .ok v ↔ IsOneOf words args v := by
  rw [C80_enum]
  constructor
  · rintro ⟨w, rest, hw, hv⟩
    obtain ⟨x, rfl, hx⟩ := (hd w v).1 hv
    exact ⟨x, ⟨rest, hw⟩, hx⟩
  · rintro ⟨w, ⟨rest, hw⟩, hv⟩
    exact ⟨_, rest, hw, (hd _ _).2 ⟨w, rfl, hv⟩⟩

theorem readAttach_ok {args : List Expr} {v : AxisAttach} : readAttach args = .ok v ↔ IsOneOf attachWords args v := by
  refine enum_iff fun w v => ?_
  unfold attachWords
  simp only [List.mem_cons, Prod.mk.injEq, List.not_mem_nil, or_false]
  constructor
  · intro h
    split_ifs at h with h1 h2 h3 h4 <;> cases h
    · exact ⟨_, h1.symm, by simp⟩
    · exact ⟨_, h2.symm, by simp⟩
    · exact ⟨_, h3.symm, by simp⟩
    · exact ⟨_, h4.symm, by simp⟩
  · rintro ⟨x, rfl, ⟨rfl, rfl⟩ | ⟨rfl, rfl⟩ | ⟨rfl, rfl⟩ | ⟨rfl, rfl⟩⟩ <;> simp

theorem readAlign_ok {args : List Expr} {v : AxisAlign} : readAlign args = .ok v ↔ IsOneOf alignWords args v := by
  refine enum_iff fun w v => ?_
  unfold alignWords
  simp only [List.mem_cons, Prod.mk.injEq, List.not_mem_nil, or_false]
  constructor
  · intro h
    split_ifs at h with h1 h2 h3 h4 h5 h6 <;> cases h
    · exact ⟨_, h1.symm, by simp⟩
    · exact ⟨_, h2.symm, by simp⟩
    · exact ⟨_, h3.symm, by simp⟩
    · exact ⟨_, h4.symm, by simp⟩
    · exact ⟨_, h5.symm, by simp⟩
    · exact ⟨_, h6.symm, by simp⟩
  · rintro ⟨x, rfl, ⟨rfl, rfl⟩ | ⟨rfl, rfl⟩ | ⟨rfl, rfl⟩ | ⟨rfl, rfl⟩ | ⟨rfl, rfl⟩ | ⟨rfl, rfl⟩⟩ <;> simp

theorem eff_attach {get : σ → AxisAttach} {put : σ → AxisAttach → σ} (h : ∀ s f, get (put s f) = f) :
    EffectOf get (sets (IsOneOf attachWords)) (field (fun args _ => readAttach args) put) :=
  effect_field fun args s v hv => by show IsOneOf _ _ _; rw [h]; exact readAttach_ok.1 hv

theorem acc_attach {put : σ → AxisAttach → σ} :
    Accepts (field (fun args _ => readAttach args) put) (Has (IsOneOf attachWords)) :=
  accepts_field fun _ _ => exists_congr fun _ => readAttach_ok

theorem eff_align {get : σ → AxisAlign} {put : σ → AxisAlign → σ} (h : ∀ s f, get (put s f) = f) :
    EffectOf get (sets (IsOneOf alignWords)) (field (fun args _ => readAlign args) put) :=
  effect_field fun args s v hv => by show IsOneOf _ _ _; rw [h]; exact readAlign_ok.1 hv

theorem acc_align {put : σ → AxisAlign → σ} :
    Accepts (field (fun args _ => readAlign args) put) (Has (IsOneOf alignWords)) :=
  accepts_field fun _ _ => exists_congr fun _ => readAlign_ok

theorem none_word {args : List Expr} {w : String} :
    isWord args w.toList = true ↔ ∃ e rest, args = e :: rest ∧ IsWord e w := by
  cases args with
  | nil => simp [isWord]
  | cons e rest =>
    rw [isWord_iff]
    constructor
    · intro h; exact ⟨e, rest, rfl, h⟩
    · rintro ⟨e', rest', h, hw⟩
      cases h; exact hw

theorem eff_borderStyle : EffectOf id BorderStyle borderStyle := by
  intro args s s₁ h
  unfold borderStyle at h
  split at h
  · rename_i hw
    cases h
    exact .inl ⟨none_word.1 hw, rfl⟩
  · rename_i hw
    cases h
    exact .inr ⟨fun hn => hw (none_word.2 hn), rfl⟩

theorem acc_borderStyle : Accepts borderStyle anything := fun args s => ⟨fun _ => trivial, fun _ => by
  unfold borderStyle; split <;> exact ⟨_, rfl⟩⟩

/-! ## One axis -/

syntax "keepsr" : tactic
macro_rules | `(tactic| keepsr) => `(tactic| first
  | exact keeps_field fun _ _ => rfl
  | exact keeps_part fun _ _ => rfl
  | with_reducible exact keeps_nil
  | (with_reducible refine keeps_cons ?_ ?_) <;> keepsr)

macro "leafr" : tactic => `(tactic| first
  | leaf | exact eff_format fun _ _ => rfl | exact eff_attach fun _ _ => rfl | exact eff_align fun _ _ => rfl
  | exact eff_borderStyle)

syntax "effectr" : tactic
macro_rules | `(tactic| effectr) => `(tactic| first
  | leafr
  | exact effect_part id (fun _ _ => rfl) (fun _ => rfl) (by leafr)
  | ((with_reducible refine effect_here ?_ ?_); effectr; keepsr)
  | ((with_reducible refine effect_there ?_ ?_); keepsr; effectr))

macro "settingr" : tactic => `(tactic|
  repeat' (first
    | exact covers_nil
    | ((refine covers_skip ?_ ?_ ?_); (focus (simp; done)); (focus keepsr))
    | refine covers_act _ (by member) (by effectr) ?_))

macro "axis_open" : tactic => `(tactic| unfold axisOpts AxisOpt.scale AxisOpt.limit AxisOpt.limitMin AxisOpt.limitMax
  AxisOpt.labelFont AxisOpt.labelPlacement AxisOpt.labelFormat AxisOpt.labelAttach AxisOpt.labelOffset AxisOpt.labelPadding
  AxisOpt.labelRotate AxisOpt.labelFontSize AxisOpt.labelColor AxisOpt.tickPlacement AxisOpt.tickOffset AxisOpt.tickLength
  AxisOpt.title AxisOpt.titleFont AxisOpt.titleFontSize AxisOpt.titleColor AxisOpt.titleOffset AxisOpt.titlePadding
  AxisOpt.titleRotate AxisOpt.borderWidth AxisOpt.borderColor AxisOpt.border)

set_option maxHeartbeats 4000000 in
theorem axis_scale : Covers (axisOpts P E) (·.scale)
    [("scale", ScaleWords P), ("limit", scaleLimits E), ("limit-min", scaleMinimum E), ("limit-max", scaleMaximum E)] := by
  axis_open; settingr

set_option maxHeartbeats 4000000 in
theorem axis_title : Covers (axisOpts P E) (·.title)
    [("title", sets IsText)] := by
  axis_open; settingr

set_option maxHeartbeats 4000000 in
theorem axis_titleColor (hp : E.palette ≠ []) : Covers (axisOpts P E) (·.titleColor)
    [("title-color", sets (IsColor E))] := by
  axis_open; settingr

set_option maxHeartbeats 4000000 in
theorem axis_titleOffset : Covers (axisOpts P E) (·.titleOffset)
    [("title-offset", sets (IsNumber E))] := by
  axis_open; settingr

set_option maxHeartbeats 4000000 in
theorem axis_titlePadding : Covers (axisOpts P E) (·.titlePadding)
    [("title-padding", sets (IsMeasure P))] := by
  axis_open; settingr

set_option maxHeartbeats 4000000 in
theorem axis_titleFonts : Covers (axisOpts P E) (·.titleFonts)
    [("title-font", AddFont P), ("font", AddFont P)] := by
  axis_open; settingr

set_option maxHeartbeats 4000000 in
theorem axis_titleFontSize : Covers (axisOpts P E) (·.titleFontSize)
    [("title-font-size", sets (IsSize E)), ("font-size", sets (IsSize E))] := by
  axis_open; settingr

set_option maxHeartbeats 4000000 in
theorem axis_titleRotate : Covers (axisOpts P E) (·.titleRotate)
    [("title-rotate", sets (IsNumber E))] := by
  axis_open; settingr

set_option maxHeartbeats 4000000 in
theorem axis_tickOffset : Covers (axisOpts P E) (·.tickOffset)
    [("tick-offset", sets (IsNumber E))] := by
  axis_open; settingr

set_option maxHeartbeats 4000000 in
theorem axis_tickLength : Covers (axisOpts P E) (·.tickLength)
    [("tick-length", sets (IsMeasure P))] := by
  axis_open; settingr

set_option maxHeartbeats 4000000 in
theorem axis_tickPlacement : Covers (axisOpts P E) (·.tickPlacement)
    [("tick-placement", sets (IsPlacement P))] := by
  axis_open; settingr

set_option maxHeartbeats 4000000 in
theorem axis_labelPlacement : Covers (axisOpts P E) (·.labelPlacement)
    [("label-placement", sets (IsPlacement P))] := by
  axis_open; settingr

set_option maxHeartbeats 4000000 in
theorem axis_labelFormat : Covers (axisOpts P E) (·.labelFormat)
    [("label-format", sets (IsFormat P))] := by
  axis_open; settingr

set_option maxHeartbeats 4000000 in
theorem axis_labelAttach : Covers (axisOpts P E) (·.labelAttach)
    [("label-attach", sets (IsOneOf attachWords))] := by
  axis_open; settingr

set_option maxHeartbeats 4000000 in
theorem axis_labelOffset : Covers (axisOpts P E) (·.labelOffset)
    [("label-offset", sets (IsNumber E))] := by
  axis_open; settingr

set_option maxHeartbeats 4000000 in
theorem axis_labelPadding : Covers (axisOpts P E) (·.labelPadding)
    [("label-padding", sets (IsMeasure P))] := by
  axis_open; settingr

set_option maxHeartbeats 4000000 in
theorem axis_labelRotate : Covers (axisOpts P E) (·.labelRotate)
    [("label-rotate", sets (IsNumber E))] := by
  axis_open; settingr

set_option maxHeartbeats 4000000 in
theorem axis_labelFonts : Covers (axisOpts P E) (·.labelFonts)
    [("label-font", AddFont P), ("font", AddFont P)] := by
  axis_open; settingr

set_option maxHeartbeats 4000000 in
theorem axis_labelFontSize : Covers (axisOpts P E) (·.labelFontSize)
    [("label-font-size", sets (IsSize E)), ("font-size", sets (IsSize E))] := by
  axis_open; settingr

set_option maxHeartbeats 4000000 in
theorem axis_labelColor (hp : E.palette ≠ []) : Covers (axisOpts P E) (·.labelColor)
    [("label-color", sets (IsColor E))] := by
  axis_open; settingr

set_option maxHeartbeats 4000000 in
theorem axis_border (hp : E.palette ≠ []) : Covers (axisOpts P E) (·.border)
    [("border-width", Options.strokeWidth E), ("border-color", Options.strokeColor E), ("border-style", BorderStyle)] := by
  axis_open; settingr

set_option maxHeartbeats 4000000 in
theorem axis_align : Covers (axisOpts P E) (·.align) [] := by
  axis_open; settingr

/-- From the effects on every setting to the meaning of the options. -/
theorem axis_means_of (hp : E.palette ≠ []) {cmds : List Expr} {a b : AxisDef φ}
    (H : ∀ {α : Type} (get : AxisDef φ → α) (t : List (String × Effect α)), Covers (axisOpts P E) get t →
      (∀ q ∈ t, ∃ p ∈ axisOpts P E, p.1 = q.1) → (∀ (a : AxisDef φ) e, get { a with enable := e } = get a) →
      Acts t cmds (get a) (get b))
    (hal : b.align = a.align) : AxisMeans P E cmds a b where
  scale := H _ _ (axis_scale) (by simp [axisOpts]) fun _ _ => rfl
  title := H _ _ (axis_title) (by simp [axisOpts]) fun _ _ => rfl
  titleColor := H _ _ (axis_titleColor hp) (by simp [axisOpts]) fun _ _ => rfl
  titleOffset := H _ _ (axis_titleOffset) (by simp [axisOpts]) fun _ _ => rfl
  titlePadding := H _ _ (axis_titlePadding) (by simp [axisOpts]) fun _ _ => rfl
  titleFonts := H _ _ (axis_titleFonts) (by simp [axisOpts]) fun _ _ => rfl
  titleFontSize := H _ _ (axis_titleFontSize) (by simp [axisOpts]) fun _ _ => rfl
  titleRotate := H _ _ (axis_titleRotate) (by simp [axisOpts]) fun _ _ => rfl
  tickOffset := H _ _ (axis_tickOffset) (by simp [axisOpts]) fun _ _ => rfl
  tickLength := H _ _ (axis_tickLength) (by simp [axisOpts]) fun _ _ => rfl
  tickPlacement := H _ _ (axis_tickPlacement) (by simp [axisOpts]) fun _ _ => rfl
  labelPlacement := H _ _ (axis_labelPlacement) (by simp [axisOpts]) fun _ _ => rfl
  labelFormat := H _ _ (axis_labelFormat) (by simp [axisOpts]) fun _ _ => rfl
  labelAttach := H _ _ (axis_labelAttach) (by simp [axisOpts]) fun _ _ => rfl
  labelOffset := H _ _ (axis_labelOffset) (by simp [axisOpts]) fun _ _ => rfl
  labelPadding := H _ _ (axis_labelPadding) (by simp [axisOpts]) fun _ _ => rfl
  labelRotate := H _ _ (axis_labelRotate) (by simp [axisOpts]) fun _ _ => rfl
  labelFonts := H _ _ (axis_labelFonts) (by simp [axisOpts]) fun _ _ => rfl
  labelFontSize := H _ _ (axis_labelFontSize) (by simp [axisOpts]) fun _ _ => rfl
  labelColor := H _ _ (axis_labelColor hp) (by simp [axisOpts]) fun _ _ => rfl
  border := H _ _ (axis_border hp) (by simp [axisOpts]) fun _ _ => rfl
  align := hal

end Clip
