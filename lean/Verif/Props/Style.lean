import Verif.Spec.Drawing
import Verif.Lemmas.Settings
set_option linter.unusedSimpArgs false
/-! Property theorems C78 (styles of the draw module), C79 (styles of the plot elements), C80 (small converters). -/
namespace Clip
open Commands Settings Drawing

theorem w_color : "color".toList = ['c', 'o', 'l', 'o', 'r'] := rfl
theorem w_width : "width".toList = ['w', 'i', 'd', 't', 'h'] := rfl
theorem w_stride : "stride".toList = ['s', 't', 'r', 'i', 'd', 'e'] := rfl
theorem w_offset : "offset".toList = ['o', 'f', 'f', 's', 'e', 't'] := rfl
theorem w_angle : "angle".toList = ['a', 'n', 'g', 'l', 'e'] := rfl
theorem w_pattern : "pattern".toList = ['p', 'a', 't', 't', 'e', 'r', 'n'] := rfl
theorem w_solid : "solid".toList = ['s', 'o', 'l', 'i', 'd'] := rfl
theorem w_hatch : "hatch".toList = ['h', 'a', 't', 'c', 'h'] := rfl
theorem w_dash : "dash".toList = ['d', 'a', 's', 'h'] := rfl
theorem w_fill : "fill".toList = ['f', 'i', 'l', 'l'] := rfl
theorem w_stroke : "stroke".toList = ['s', 't', 'r', 'o', 'k', 'e'] := rfl

section
variable {E : ReadEnv}

/-- With a palette, the colour does not depend on the variable it is read into. -/
theorem exprToColor_old (hp : E.palette ≠ []) (a b : Color) (e : Expr) :
    exprToColor E.stod E.palette a e = exprToColor E.stod E.palette b e := by
  cases e with
  | list es => rfl
  | literal s =>
    have hl : 0 < E.palette.length := List.length_pos_of_ne_nil hp
    simp only [exprToColor, List.isEmpty_iff, hp, if_false]
    have : ∀ n : Nat, E.palette.getD (n % E.palette.length) a = E.palette.getD (n % E.palette.length) b := by
      intro n
      have h := Nat.mod_lt n hl
      simp [List.getD, List.getElem?_eq_getElem h]
    simp only [this]
  | value s =>
    have hl : 0 < E.palette.length := List.length_pos_of_ne_nil hp
    simp only [exprToColor, List.isEmpty_iff, hp, if_false]
    have : ∀ n : Nat, E.palette.getD (n % E.palette.length) a = E.palette.getD (n % E.palette.length) b := by
      intro n
      have h := Nat.mod_lt n hl
      simp [List.getD, List.getElem?_eq_getElem h]
    simp only [this]

theorem readColor_ok (hp : E.palette ≠ []) (old : Color) (args : List Expr) (c : Color) :
    readColor E old args = .ok c ↔ IsColor E args c := by
  cases args with
  | nil => simp [readColor, IsColor]
  | cons e rest =>
    have : (∀ o, exprToColor E.stod E.palette o e = .ok c) ↔ exprToColor E.stod E.palette old e = .ok c :=
      ⟨fun h => h old, fun h o => by rw [exprToColor_old hp o old, h]⟩
    simp only [readColor, IsColor, List.cons.injEq]
    constructor
    · intro h
      refine ⟨e, rest, ⟨rfl, rfl⟩, this.2 ?_⟩
      cases hx : exprToColor E.stod E.palette old e <;> rw [hx] at h <;> simp_all [liftOutcome]
    · rintro ⟨e', r', ⟨rfl, rfl⟩, h⟩
      rw [h old]; rfl

theorem readNumber_ok {stod : Str → Option (ℝ × Nat)} {conv : UnitConvMap} {args : List Expr} {v : ℝ} :
    readNumber stod conv args = .ok v ↔ ∃ e rest, args = e :: rest ∧ exprToNumber stod conv e = .ok v := by
  cases args with
  | nil => simp [readNumber]
  | cons e rest =>
    simp only [readNumber, List.cons.injEq]
    constructor
    · intro h
      refine ⟨e, rest, ⟨rfl, rfl⟩, ?_⟩
      cases hx : exprToNumber stod conv e <;> rw [hx] at h <;> simp_all [liftMeasure]
    · rintro ⟨e', r', ⟨rfl, rfl⟩, h⟩
      rw [h]; rfl

theorem readSize_ok {args : List Expr} {v : ℝ} : readSize E args = .ok v ↔ IsSize E args v := readNumber_ok

theorem readFloat_ok {args : List Expr} {v : ℝ} : readFloat E args = .ok v ↔ IsNumber E args v := by
  cases args with
  | nil => simp [readFloat, IsNumber]
  | cons e rest =>
    simp only [readFloat, IsNumber, List.cons.injEq]
    constructor
    · intro h
      refine ⟨e, rest, ⟨rfl, rfl⟩, ?_⟩
      cases hx : exprToFloat E.stod e <;> rw [hx] at h <;> simp_all
    · rintro ⟨e', r', ⟨rfl, rfl⟩, h⟩
      rw [h]

theorem readEach_ok {α : Type} {read : List Expr → Except Fail α} {R : Expr → α → Prop}
    (h : ∀ e es v, read (e :: es) = .ok v ↔ R e v) (args : List Expr) (vs : List α) :
    readEach read args = .ok vs ↔ List.Forall₂ R args vs := by
  induction args generalizing vs with
  | nil => cases vs <;> simp [readEach]
  | cons e es ih =>
    simp only [readEach]
    cases hr : read (e :: es) with
    | error f =>
      simp only
      constructor
      · intro h'; cases h'
      · intro h'
        cases h' with
        | cons a b => rw [(h e es _).2 a] at hr; cases hr
    | ok v =>
      simp only
      have hv := (h e es v).1 hr
      cases hr' : readEach read es with
      | error f =>
        simp only
        constructor
        · intro h'; cases h'
        · intro h'
          cases h' with
          | cons a b => rw [(ih _).2 b] at hr'; cases hr'
      | ok vs' =>
        simp only [Except.ok.injEq]
        constructor
        · rintro rfl
          exact .cons hv ((ih _).1 hr')
        · intro h'
          cases h' with
          | cons a b =>
            rw [(h e es _).2 a] at hr; cases hr
            rw [(ih _).2 b] at hr'; cases hr'
            rfl

theorem readPattern_ok {args : List Expr} {vs : List ℝ} : readEach (readSize E) args = .ok vs ↔ AreSizes E args vs := by
  refine readEach_ok (fun e es v => ?_) args vs
  rw [readSize_ok]
  simp only [IsSize, List.cons.injEq]
  constructor
  · rintro ⟨_, _, ⟨rfl, rfl⟩, h⟩; exact h
  · intro h; exact ⟨e, es, ⟨rfl, rfl⟩, h⟩

theorem IsColor.unique (_ : E.palette ≠ []) {args : List Expr} {a b : Color} (h : IsColor E args a) (h' : IsColor E args b) : a = b := by
  obtain ⟨e, r, rfl, h⟩ := h
  obtain ⟨e', r', he, h'⟩ := h'
  simp only [List.cons.injEq] at he
  obtain ⟨rfl, rfl⟩ := he
  have := h .black
  rw [h' .black] at this
  simpa using this.symm

theorem IsSize.unique {args : List Expr} {a b : ℝ} (h : IsSize E args a) (h' : IsSize E args b) : a = b := by
  rw [← readSize_ok] at h h'; rw [h] at h'; simpa using h'

theorem IsNumber.unique {args : List Expr} {a b : ℝ} (h : IsNumber E args a) (h' : IsNumber E args b) : a = b := by
  rw [← readFloat_ok] at h h'; rw [h] at h'; simpa using h'

theorem AreSizes.unique {args : List Expr} {a b : List ℝ} (h : AreSizes E args a) (h' : AreSizes E args b) : a = b := by
  rw [← readPattern_ok] at h h'; rw [h] at h'; simpa using h'

theorem Final.unique {α : Type} {read : List Expr → α → Prop} {name : Str} {cmds : List Expr} {x a b : α}
    (hu : ∀ args a b, read args a → read args b → a = b) (h : Final read name cmds x a) (h' : Final read name cmds x b) :
    a = b := by
  unfold Final at h h'
  cases hl : lastArgs name cmds with
  | none => rw [hl] at h h'; simp only at h h'; rw [h, h']
  | some as => rw [hl] at h h'; exact hu _ _ _ h h'

theorem pt_eq (v : ℝ) : unitFromPt v E.size.dpi = pt E v := by unfold unitFromPt pt; ring

theorem hatch_executed (hp : E.palette ≠ []) {cmds : List Expr} {h₀ h : FillHatch}
    (he : Executed (hatchTable E) cmds h₀ h) :
    Final (IsColor E) "color".toList cmds h₀.color h.color ∧ Final (IsSize E) "width".toList cmds h₀.width h.width ∧
    Final (IsSize E) "stride".toList cmds h₀.stride h.stride ∧ Final (IsNumber E) "angle".toList cmds h₀.angle h.angle ∧
    Final (IsSize E) "offset".toList cmds h₀.offset h.offset := by
  refine ⟨executed_final (get := (·.color)) ?_ ?_ he, executed_final (get := (·.width)) ?_ ?_ he,
    executed_final (get := (·.stride)) ?_ ?_ he, executed_final (get := (·.angle)) ?_ ?_ he,
    executed_final (get := (·.offset)) ?_ ?_ he⟩
  all_goals simp only [w_color, w_width, w_stride, w_angle, w_offset]
  all_goals
    first
    | (intro h args s s₁ hf hr
       simp only [hatchTable, List.cons.injEq, Char.reduceEq, false_and, and_false, and_self, if_false, if_true,
         Option.some.injEq] at hf
       subst hf
       rw [field_ok] at hr
       obtain ⟨v, hv, rfl⟩ := hr
       first | exact (readColor_ok hp _ _ _).1 hv | exact readSize_ok.1 hv | exact readFloat_ok.1 hv)
    | (intro n h args s s₁ hn hf hr
       simp only [hatchTable] at hf
       repeat' split at hf
       all_goals first
         | (simp only [Option.some.injEq] at hf
            subst hf
            rw [field_ok] at hr
            obtain ⟨v, hv, rfl⟩ := hr
            first | rfl | (exfalso; apply hn; assumption))
         | cases hf)

theorem mem3 {α : Type} {x a b c : α} : x ∈ [a, b, c] ↔ x = a ∨ x = b ∨ x = c := by simp
theorem mem2 {α : Type} {x a b : α} : x ∈ [a, b] ↔ x = a ∨ x = b := by simp

theorem hatch_accept (hp : E.palette ≠ []) (cmds : List Expr) (h₀ : FillHatch) :
    (∃ h, Executed (hatchTable E) cmds h₀ h) ↔ ∀ c ∈ cmds, ∃ n, nameOf c = some n ∧
    ((n = "color".toList ∧ ∃ v, IsColor E (argsOf c) v) ∨
     (n ∈ ["width".toList, "stride".toList, "offset".toList] ∧ ∃ v, IsSize E (argsOf c) v) ∨
     (n = "angle".toList ∧ ∃ v, IsNumber E (argsOf c) v)) := by
  refine executed_iff_all (ok := fun n args => ((n = "color".toList ∧ ∃ v, IsColor E args v) ∨
     (n ∈ ["width".toList, "stride".toList, "offset".toList] ∧ ∃ v, IsSize E args v) ∨
     (n = "angle".toList ∧ ∃ v, IsNumber E args v))) ?_ ?_ cmds h₀
  · intro n h args s s₁ hf hr
    simp only [hatchTable] at hf
    simp only [w_color, w_width, w_stride, w_angle, w_offset, mem3]
    repeat' split at hf
    all_goals first
      | (simp only [Option.some.injEq] at hf
         subst hf
         rw [field_ok] at hr
         obtain ⟨v, hv, rfl⟩ := hr
         subst_vars
         first
         | (have := (readColor_ok hp _ _ _).1 hv; simp; exact ⟨v, this⟩)
         | (have := readSize_ok.1 hv; simp; exact ⟨v, this⟩)
         | (have := readFloat_ok.1 hv; simp; exact ⟨v, this⟩))
      | cases hf
  · intro n args s hok
    simp only [w_color, w_width, w_stride, w_angle, w_offset, mem3] at hok
    rcases hok with ⟨rfl, v, hv⟩ | ⟨rfl | rfl | rfl, v, hv⟩ | ⟨rfl, v, hv⟩
    all_goals refine ⟨_, _, by simp only [hatchTable, List.cons.injEq, Char.reduceEq, false_and, and_false, and_self, if_false, if_true]; rfl, field_ok.2 ⟨v, ?_, rfl⟩⟩
    · exact (readColor_ok hp _ _ _).2 hv
    · exact readSize_ok.2 hv
    · exact readSize_ok.2 hv
    · exact readSize_ok.2 hv
    · exact readFloat_ok.2 hv

theorem hatch_means (hp : E.palette ≠ []) (cmds : List Expr) (h : FillHatch) :
    Executed (hatchTable E) cmds ⟨.black, -45, 0, unitFromPt 6 E.size.dpi, unitFromPt 2 E.size.dpi⟩ h ↔
      HatchMeans E cmds h := by
  unfold HatchMeans
  constructor
  · intro he
    have := hatch_executed hp he
    simp only [pt_eq] at this
    exact ⟨(hatch_accept hp _ _).1 ⟨_, he⟩, this⟩
  · rintro ⟨ha, h1, h2, h3, h4, h5⟩
    obtain ⟨h', he⟩ := (hatch_accept hp cmds ⟨.black, -45, 0, unitFromPt 6 E.size.dpi, unitFromPt 2 E.size.dpi⟩).2 ha
    obtain ⟨g1, g2, g3, g4, g5⟩ := hatch_executed hp he
    simp only [pt_eq] at g2 g3
    have e1 := Final.unique (fun args a b => IsColor.unique (args := args) (a := a) (b := b) hp) h1 g1
    have e2 := Final.unique (fun args a b => IsSize.unique (args := args) (a := a) (b := b)) h2 g2
    have e3 := Final.unique (fun args a b => IsSize.unique (args := args) (a := a) (b := b)) h3 g3
    have e4 := Final.unique (fun args a b => IsNumber.unique (args := args) (a := a) (b := b)) h4 g4
    have e5 := Final.unique (fun args a b => IsSize.unique (args := args) (a := a) (b := b)) h5 g5
    have : h = h' := by
      cases h; cases h'; simp only at e1 e2 e3 e4 e5; subst e1 e2 e3 e4 e5; rfl
    rw [this]; exact he

theorem solid_executed (hp : E.palette ≠ []) {cmds : List Expr} {h₀ h : StrokeSolid}
    (he : Executed (strokeTable E) cmds h₀ h) :
    Final (IsColor E) "color".toList cmds h₀.color h.color ∧
    Final (IsSize E) "width".toList cmds h₀.width h.width := by
  refine ⟨executed_final (get := (·.color)) ?_ ?_ he, executed_final (get := (·.width)) ?_ ?_ he⟩
  all_goals simp only [w_color, w_width, w_stride, w_angle, w_offset]
  all_goals
    first
    | (intro h args s s₁ hf hr
       simp only [strokeTable, List.cons.injEq, Char.reduceEq, false_and, and_false, and_self, if_false, if_true,
         Option.some.injEq] at hf
       subst hf
       rw [field_ok] at hr
       obtain ⟨v, hv, rfl⟩ := hr
       first | exact (readColor_ok hp _ _ _).1 hv | exact readSize_ok.1 hv | exact readFloat_ok.1 hv)
    | (intro n h args s s₁ hn hf hr
       simp only [strokeTable] at hf
       repeat' split at hf
       all_goals first
         | (simp only [Option.some.injEq] at hf
            subst hf
            rw [field_ok] at hr
            obtain ⟨v, hv, rfl⟩ := hr
            first | rfl | (exfalso; apply hn; assumption))
         | cases hf)

theorem solid_accept (hp : E.palette ≠ []) (cmds : List Expr) (h₀ : StrokeSolid) :
    (∃ h, Executed (strokeTable E) cmds h₀ h) ↔ ∀ c ∈ cmds, ∃ n, nameOf c = some n ∧
    ((n = "color".toList ∧ ∃ v, IsColor E (argsOf c) v) ∨ (n = "width".toList ∧ ∃ v, IsSize E (argsOf c) v)) := by
  refine executed_iff_all (ok := fun n args => ((n = "color".toList ∧ ∃ v, IsColor E args v) ∨
     (n = "width".toList ∧ ∃ v, IsSize E args v))) ?_ ?_ cmds h₀
  · intro n h args s s₁ hf hr
    simp only [strokeTable] at hf
    simp only [w_color, w_width]
    repeat' split at hf
    all_goals first
      | (simp only [Option.some.injEq] at hf
         subst hf
         rw [field_ok] at hr
         obtain ⟨v, hv, rfl⟩ := hr
         subst_vars
         first
         | (have := (readColor_ok hp _ _ _).1 hv; simp; exact ⟨v, this⟩)
         | (have := readSize_ok.1 hv; simp; exact ⟨v, this⟩))
      | cases hf
  · intro n args s hok
    simp only [w_color, w_width] at hok
    rcases hok with ⟨rfl, v, hv⟩ | ⟨rfl, v, hv⟩
    all_goals refine ⟨_, _, by simp only [strokeTable, List.cons.injEq, Char.reduceEq, false_and, and_false, and_self, if_false, if_true]; rfl, field_ok.2 ⟨v, ?_, rfl⟩⟩
    · exact (readColor_ok hp _ _ _).2 hv
    · exact readSize_ok.2 hv

theorem solid_means (hp : E.palette ≠ []) (cmds : List Expr) (k : StrokeSolid) :
    Executed (strokeTable E) cmds ⟨.black, unitFromPt 1 E.size.dpi⟩ k ↔ SolidMeans E cmds k := by
  unfold SolidMeans
  constructor
  · intro he
    have := solid_executed hp he
    simp only [pt_eq] at this
    exact ⟨(solid_accept hp _ _).1 ⟨_, he⟩, this⟩
  · rintro ⟨ha, h1, h2⟩
    obtain ⟨h', he⟩ := (solid_accept hp cmds ⟨.black, unitFromPt 1 E.size.dpi⟩).2 ha
    obtain ⟨g1, g2⟩ := solid_executed hp he
    simp only [pt_eq] at g2
    have e1 := Final.unique (fun args a b => IsColor.unique (args := args) (a := a) (b := b) hp) h1 g1
    have e2 := Final.unique (fun args a b => IsSize.unique (args := args) (a := a) (b := b)) h2 g2
    have : k = h' := by
      cases k; cases h'; simp only at e1 e2; subst e1 e2; rfl
    rw [this]; exact he

theorem dash_executed (hp : E.palette ≠ []) {cmds : List Expr} {h₀ h : StrokeDash}
    (he : Executed (dashTable E) cmds h₀ h) :
    Final (IsColor E) "color".toList cmds h₀.color h.color ∧
    Final (IsSize E) "width".toList cmds h₀.width h.width ∧
    Final (AreSizes E) "pattern".toList cmds h₀.pattern h.pattern ∧
    Final (IsSize E) "offset".toList cmds h₀.offset h.offset := by
  refine ⟨executed_final (get := (·.color)) ?_ ?_ he, executed_final (get := (·.width)) ?_ ?_ he,
    executed_final (get := (·.pattern)) ?_ ?_ he, executed_final (get := (·.offset)) ?_ ?_ he⟩
  all_goals simp only [w_color, w_width, w_pattern, w_angle, w_offset]
  all_goals
    first
    | (intro h args s s₁ hf hr
       simp only [dashTable, List.cons.injEq, Char.reduceEq, false_and, and_false, and_self, if_false, if_true,
         Option.some.injEq] at hf
       subst hf
       rw [field_ok] at hr
       obtain ⟨v, hv, rfl⟩ := hr
       first | exact (readColor_ok hp _ _ _).1 hv | exact readSize_ok.1 hv | exact readPattern_ok.1 hv)
    | (intro n h args s s₁ hn hf hr
       simp only [dashTable] at hf
       repeat' split at hf
       all_goals first
         | (simp only [Option.some.injEq] at hf
            subst hf
            rw [field_ok] at hr
            obtain ⟨v, hv, rfl⟩ := hr
            first | rfl | (exfalso; apply hn; assumption))
         | cases hf)

theorem dash_accept (hp : E.palette ≠ []) (cmds : List Expr) (h₀ : StrokeDash) :
    (∃ h, Executed (dashTable E) cmds h₀ h) ↔ ∀ c ∈ cmds, ∃ n, nameOf c = some n ∧
    ((n = "color".toList ∧ ∃ v, IsColor E (argsOf c) v) ∨
     (n ∈ ["width".toList, "offset".toList] ∧ ∃ v, IsSize E (argsOf c) v) ∨
     (n = "pattern".toList ∧ ∃ vs, AreSizes E (argsOf c) vs)) := by
  refine executed_iff_all (ok := fun n args => ((n = "color".toList ∧ ∃ v, IsColor E args v) ∨
     (n ∈ ["width".toList, "offset".toList] ∧ ∃ v, IsSize E args v) ∨
     (n = "pattern".toList ∧ ∃ v, AreSizes E args v))) ?_ ?_ cmds h₀
  · intro n h args s s₁ hf hr
    simp only [dashTable] at hf
    simp only [w_color, w_width, w_pattern, w_offset, mem2]
    repeat' split at hf
    all_goals first
      | (simp only [Option.some.injEq] at hf
         subst hf
         rw [field_ok] at hr
         obtain ⟨v, hv, rfl⟩ := hr
         subst_vars
         first
         | (have := (readColor_ok hp _ _ _).1 hv; simp; exact ⟨v, this⟩)
         | (have := readSize_ok.1 hv; simp; exact ⟨v, this⟩)
         | (have := readPattern_ok.1 hv; simp; exact ⟨v, this⟩))
      | cases hf
  · intro n args s hok
    simp only [w_color, w_width, w_pattern, w_offset, mem2] at hok
    rcases hok with ⟨rfl, v, hv⟩ | ⟨rfl | rfl, v, hv⟩ | ⟨rfl, v, hv⟩
    all_goals refine ⟨_, _, by simp only [dashTable, List.cons.injEq, Char.reduceEq, false_and, and_false, and_self, if_false, if_true]; rfl, field_ok.2 ⟨v, ?_, rfl⟩⟩
    · exact (readColor_ok hp _ _ _).2 hv
    · exact readSize_ok.2 hv
    · exact readSize_ok.2 hv
    · exact readPattern_ok.2 hv

theorem dash_means (hp : E.palette ≠ []) (cmds : List Expr) (k : StrokeDash) :
    Executed (dashTable E) cmds
      ⟨.black, unitFromPt 1 E.size.dpi, [unitFromPt 4 E.size.dpi, unitFromPt 4 E.size.dpi], 0⟩ k ↔ DashMeans E cmds k := by
  unfold DashMeans
  constructor
  · intro he
    have := dash_executed hp he
    simp only [pt_eq] at this
    exact ⟨(dash_accept hp _ _).1 ⟨_, he⟩, this⟩
  · rintro ⟨ha, h1, h2, h3, h4⟩
    obtain ⟨h', he⟩ := (dash_accept hp cmds
      ⟨.black, unitFromPt 1 E.size.dpi, [unitFromPt 4 E.size.dpi, unitFromPt 4 E.size.dpi], 0⟩).2 ha
    obtain ⟨g1, g2, g3, g4⟩ := dash_executed hp he
    simp only [pt_eq] at g2 g3
    have e1 := Final.unique (fun args a b => IsColor.unique (args := args) (a := a) (b := b) hp) h1 g1
    have e2 := Final.unique (fun args a b => IsSize.unique (args := args) (a := a) (b := b)) h2 g2
    have e3 := Final.unique (fun args a b => AreSizes.unique (args := args) (a := a) (b := b)) h3 g3
    have e4 := Final.unique (fun args a b => IsSize.unique (args := args) (a := a) (b := b)) h4 g4
    have : k = h' := by
      cases k; cases h'; simp only at e1 e2 e3 e4; subst e1 e2 e3 e4; rfl
    rw [this]; exact he

/-- A word that is not a colour. -/
theorem word_not_color {args : List Expr} {w : Str} (hw : isWord args w = true) (h1 : beginsWith w ['#'] = false)
    (h2 : isDigitText w = false) (c : Color) : ¬ IsColor E args c := by
  rintro ⟨e, rest, rfl, h⟩
  have := h .black
  simp only [isWord, Bool.and_eq_true, beq_iff_eq] at hw
  obtain ⟨hv, hw⟩ := hw
  cases e with
  | list l => cases hv
  | literal s => simp only [Expr.getValue] at hw; subst hw; simp [exprToColor, Expr.getValue, h1, h2] at this
  | value s => simp only [Expr.getValue] at hw; subst hw; simp [exprToColor, Expr.getValue, h1, h2] at this

theorem call_not_color {args as : List Expr} {w : Str} (hw : isCall args w = some as) (h1 : w ≠ "rgb".toList)
    (h2 : w ≠ "rgba".toList) (c : Color) : ¬ IsColor E args c := by
  rintro ⟨e, rest, rfl, h⟩
  have := h .black
  cases e with
  | literal s => simp [isCall] at hw
  | value s => simp [isCall] at hw
  | list l =>
    cases l with
    | nil => simp [isCall] at hw
    | cons k l =>
      simp only [isCall] at hw
      split at hw
      · rename_i hk
        simp only [Bool.and_eq_true, beq_iff_eq] at hk
        obtain ⟨hk1, hk2⟩ := hk
        have n1 : (k.getValue == "rgb".toList) = false := by rw [hk2]; simpa using h1
        have n2 : (k.getValue == "rgba".toList) = false := by rw [hk2]; simpa using h2
        have : exprToColorList E.stod (k :: l) = .error .invalidColor := by
          unfold exprToColorList
          split <;> rename_i heq <;> try rfl
          all_goals
            simp only [List.cons.injEq] at heq
            obtain ⟨rfl, _⟩ := heq
            simp only [n1, n2, Bool.and_false, Bool.false_eq_true, if_false]
        rename_i this'
        simp [exprToColor, this] at this'
      · cases hw

theorem isWord_iff {k : Expr} {rest : List Expr} {w : Str} : isWord (k :: rest) w = true ↔ k = .literal w ∨ k = .value w := by
  cases k <;> simp [isWord, Expr.isValue, Expr.getValue]

theorem isWord_true {args : List Expr} {w : Str} (h : isWord args w = true) :
    ∃ k rest, args = k :: rest ∧ (k = .literal w ∨ k = .value w) := by
  cases args with
  | nil => simp [isWord] at h
  | cons k rest => exact ⟨k, rest, rfl, isWord_iff.1 h⟩

theorem isCall_some {args as : List Expr} {w : Str} :
    isCall args w = some as ↔ ∃ k rest, args = .list (k :: as) :: rest ∧ (k = .literal w ∨ k = .value w) := by
  have key : ∀ h : Expr, (h.isValue && h.getValue == w) = true ↔ (h = .literal w ∨ h = .value w) := by
    intro h; cases h <;> simp [Expr.isValue, Expr.getValue]
  match args with
  | .list (h :: args') :: rest =>
    simp only [isCall]
    by_cases hk : (h.isValue && h.getValue == w) = true
    · rw [if_pos hk]
      constructor
      · intro e; cases e; exact ⟨h, rest, rfl, (key h).1 hk⟩
      · rintro ⟨k, r, heq, _⟩; cases heq; rfl
    · rw [if_neg hk]
      constructor
      · intro h'; cases h'
      · rintro ⟨k, r, heq, hk'⟩; cases heq; exact absurd ((key _).2 hk') hk
  | [] => simp [isCall]
  | .list [] :: _ => simp [isCall]
  | .literal _ :: _ => simp [isCall]
  | .value _ :: _ => simp [isCall]

theorem readFillSolid_ok (hp : E.palette ≠ []) (args : List Expr) (s s' : Compound) :
    readFillSolid E args s = (s', none) ↔ ∃ c, IsColor E args c ∧ s' = both s ⟨[c], [], [], []⟩ := by
  unfold readFillSolid
  cases h : readColor E .black args with
  | ok c =>
    have hc := (readColor_ok hp _ _ _).1 h
    simp only [Prod.mk.injEq, and_true, both, List.append_nil]
    constructor
    · rintro rfl; exact ⟨c, hc, rfl⟩
    · rintro ⟨c', hc', rfl⟩; rw [IsColor.unique hp hc hc']
  | error f =>
    simp only [Prod.mk.injEq, reduceCtorEq, and_false, false_iff]
    rintro ⟨c, hc, _⟩
    rw [(readColor_ok hp .black _ _).2 hc] at h; cases h

theorem readFillHatch_ok (hp : E.palette ≠ []) (args : List Expr) (s s' : Compound) :
    readFillHatch E args s = (s', none) ↔ ∃ h, HatchMeans E args h ∧ s' = both s ⟨[], [h], [], []⟩ := by
  unfold readFillHatch
  rcases walkRead_cases (hatchTable E) args ⟨.black, -45, 0, unitFromPt 6 E.size.dpi, unitFromPt 2 E.size.dpi⟩ with
    ⟨h, e, he⟩ | ⟨h, f, e, he⟩
  · rw [e]
    have hm := (hatch_means hp _ _).1 he
    simp only [Prod.mk.injEq, and_true, both, List.append_nil]
    constructor
    · rintro rfl; exact ⟨h, hm, rfl⟩
    · rintro ⟨h', hm', rfl⟩
      rw [he.det ((hatch_means hp _ _).2 hm')]
  · rw [e]
    simp only [Prod.mk.injEq, reduceCtorEq, and_false, false_iff]
    rintro ⟨h', hm', _⟩
    exact he _ ((hatch_means hp _ _).2 hm')

theorem readStrokeSolid_ok (hp : E.palette ≠ []) (args : List Expr) (s s' : Compound) :
    readStrokeSolid E args s = (s', none) ↔ ∃ k, SolidMeans E args k ∧ s' = both s ⟨[], [], [k], []⟩ := by
  unfold readStrokeSolid
  rcases walkRead_cases (strokeTable E) args ⟨.black, unitFromPt 1 E.size.dpi⟩ with ⟨h, e, he⟩ | ⟨h, f, e, he⟩
  · rw [e]
    have hm := (solid_means hp _ _).1 he
    simp only [Prod.mk.injEq, and_true, both, List.append_nil]
    constructor
    · rintro rfl; exact ⟨h, hm, rfl⟩
    · rintro ⟨h', hm', rfl⟩
      rw [he.det ((solid_means hp _ _).2 hm')]
  · rw [e]
    simp only [Prod.mk.injEq, reduceCtorEq, and_false, false_iff]
    rintro ⟨h', hm', _⟩
    exact he _ ((solid_means hp _ _).2 hm')

theorem readStrokeDash_ok (hp : E.palette ≠ []) (args : List Expr) (s s' : Compound) :
    readStrokeDash E args s = (s', none) ↔ ∃ k, DashMeans E args k ∧ s' = both s ⟨[], [], [], [k]⟩ := by
  unfold readStrokeDash
  rcases walkRead_cases (dashTable E) args
    ⟨.black, unitFromPt 1 E.size.dpi, [unitFromPt 4 E.size.dpi, unitFromPt 4 E.size.dpi], 0⟩ with
    ⟨h, e, he⟩ | ⟨h, f, e, he⟩
  · rw [e]
    have hm := (dash_means hp _ _).1 he
    simp only [Prod.mk.injEq, and_true, both, List.append_nil]
    constructor
    · rintro rfl; exact ⟨h, hm, rfl⟩
    · rintro ⟨h', hm', rfl⟩
      rw [he.det ((dash_means hp _ _).2 hm')]
  · rw [e]
    simp only [Prod.mk.injEq, reduceCtorEq, and_false, false_iff]
    rintro ⟨h', hm', _⟩
    exact he _ ((dash_means hp _ _).2 hm')

theorem readStrokeShort_ok (hp : E.palette ≠ []) (args : List Expr) (s s' : Compound) :
    readStrokeShort E args s = (s', none) ↔
      ∃ a b w c, args = [a, b] ∧ IsSize E [a] w ∧ IsColor E [b] c ∧ s' = both s ⟨[], [], [⟨c, w⟩], []⟩ := by
  unfold readStrokeShort
  split
  · rename_i a b
    cases hw : readSize E [a] with
    | error f =>
      simp only [Prod.mk.injEq, reduceCtorEq, and_false, false_iff]
      rintro ⟨a', b', w, c, heq, h1, _⟩
      simp only [List.cons.injEq, and_true] at heq
      rw [← heq.1] at h1
      rw [readSize_ok.2 h1] at hw; cases hw
    | ok w =>
      simp only
      cases hc : readColor E .black [b] with
      | error f =>
        simp only [Prod.mk.injEq, reduceCtorEq, and_false, false_iff]
        rintro ⟨a', b', w, c, heq, h1, h2, _⟩
        simp only [List.cons.injEq, and_true] at heq
        rw [← heq.2] at h2
        rw [(readColor_ok hp _ _ _).2 h2] at hc; cases hc
      | ok c =>
        have h1 := readSize_ok.1 hw
        have h2 := (readColor_ok hp _ _ _).1 hc
        simp only [Prod.mk.injEq, and_true, both, List.append_nil]
        constructor
        · rintro rfl; exact ⟨a, b, w, c, rfl, h1, h2, rfl⟩
        · rintro ⟨a', b', w', c', heq, g1, g2, rfl⟩
          simp only [List.cons.injEq, and_true] at heq
          rw [← heq.1] at g1
          rw [← heq.2] at g2
          rw [IsSize.unique h1 g1, IsColor.unique hp h2 g2]
  · rename_i hne
    simp only [Prod.mk.injEq, reduceCtorEq, and_false, false_iff]
    rintro ⟨a, b, w, c, rfl, _⟩
    exact hne a b rfl

theorem kw_disjoint {args as : List Expr} {v w : Str} (h : isWord args v = true) : isCall args w ≠ some as := by
  intro h'
  obtain ⟨k, r, rfl, hk⟩ := isWord_true h
  obtain ⟨k', r', heq, hk'⟩ := isCall_some.1 h'
  simp only [List.cons.injEq] at heq
  rw [heq.1] at hk
  simp at hk

theorem isWord_unique {args : List Expr} {v w : Str} (h : isWord args v = true) (h' : isWord args w = true) : v = w := by
  obtain ⟨k, r, rfl, hk⟩ := isWord_true h
  rcases hk with rfl | rfl <;> simpa [isWord, Expr.isValue, Expr.getValue] using h'

theorem isCall_unique {args as bs : List Expr} {v w : Str} (h : isCall args v = some as) (h' : isCall args w = some bs) :
    v = w ∧ as = bs := by
  obtain ⟨k, r, rfl, hk⟩ := isCall_some.1 h
  obtain ⟨k', r', heq, hk'⟩ := isCall_some.1 h'
  simp only [List.cons.injEq, Expr.list.injEq] at heq
  obtain ⟨⟨rfl, rfl⟩, rfl⟩ := heq
  refine ⟨?_, rfl⟩
  rcases hk with rfl | rfl <;> rcases hk' with h | h <;> simpa using h

theorem word_of {k : Expr} {rest : List Expr} {w : String} (h : IsWord k w) : isWord (k :: rest) w.toList = true :=
  isWord_iff.2 h

theorem call_of {k : Expr} {as rest : List Expr} {w : String} (h : IsWord k w) :
    isCall (.list (k :: as) :: rest) w.toList = some as := isCall_some.2 ⟨k, rest, rfl, h⟩

theorem isCall_nil (w : Str) : isCall [] w = none := rfl

/-- C78: a `fill` setting is accepted exactly if it is a colour, `solid(colour)`, `hatch` or `hatch(settings)`, and adds
exactly that fill on top of the fills and strokes given before. -/
theorem C78_fill (E : ReadEnv) (hp : E.palette ≠ []) (args : List Expr) (s s' : Compound) :
    readFill E args s = (s', none) ↔ ∃ f, FillMeans E args f ∧ s' = both s f := by
  have d1 : ∀ {args}, isWord args ['s', 'o', 'l', 'i', 'd'] = true → ∀ c, ¬ IsColor E args c :=
    fun h => word_not_color h (by decide) (by decide)
  have d2 : ∀ {args}, isWord args ['h', 'a', 't', 'c', 'h'] = true → ∀ c, ¬ IsColor E args c :=
    fun h => word_not_color h (by decide) (by decide)
  have d3 : ∀ {args as}, isCall args ['s', 'o', 'l', 'i', 'd'] = some as → ∀ c, ¬ IsColor E args c :=
    fun h => call_not_color h (by decide) (by decide)
  have d4 : ∀ {args as}, isCall args ['h', 'a', 't', 'c', 'h'] = some as → ∀ c, ¬ IsColor E args c :=
    fun h => call_not_color h (by decide) (by decide)
  unfold readFill
  by_cases h1 : isWord args ['s', 'o', 'l', 'i', 'd'] = true
  · rw [if_pos h1, readFillSolid_ok hp]
    constructor
    · rintro ⟨c, ⟨e, r, h, _⟩, _⟩; cases h
    · rintro ⟨f, hf, rfl⟩
      cases hf with
      | color hc => exact absurd hc (d1 h1 _)
      | solid hk hc => exact absurd (call_of hk) (kw_disjoint h1)
      | hatch hk _ => exact absurd (isWord_unique h1 (word_of hk)) (by decide)
      | hatchWith hk _ => exact absurd (call_of hk) (kw_disjoint h1)
  · rw [if_neg h1]
    cases h2 : isCall args ['s', 'o', 'l', 'i', 'd'] with
    | some as =>
      simp only
      rw [readFillSolid_ok hp]
      constructor
      · rintro ⟨c, hc, rfl⟩
        obtain ⟨k, r, rfl, hk⟩ := isCall_some.1 h2
        exact ⟨_, .solid hk hc, rfl⟩
      · rintro ⟨f, hf, rfl⟩
        cases hf with
        | color hc => exact absurd hc (d3 h2 _)
        | solid hk hc => rw [(isCall_unique h2 (call_of hk)).2]; exact ⟨_, hc, rfl⟩
        | hatch hk _ => exact absurd h2 (kw_disjoint (word_of hk))
        | hatchWith hk _ => exact absurd (isCall_unique h2 (call_of hk)).1 (by decide)
    | none =>
      simp only
      by_cases h3 : isWord args ['h', 'a', 't', 'c', 'h'] = true
      · rw [if_pos h3, readFillHatch_ok hp]
        constructor
        · rintro ⟨h, hm, rfl⟩
          obtain ⟨k, r, rfl, hk⟩ := isWord_true h3
          exact ⟨_, .hatch hk hm, rfl⟩
        · rintro ⟨f, hf, rfl⟩
          cases hf with
          | color hc => exact absurd hc (d2 h3 _)
          | solid hk hc => exact absurd (call_of hk) (kw_disjoint h3)
          | hatch hk hm => exact ⟨_, hm, rfl⟩
          | hatchWith hk _ => exact absurd (call_of hk) (kw_disjoint h3)
      · rw [if_neg h3]
        cases h4 : isCall args ['h', 'a', 't', 'c', 'h'] with
        | some as =>
          simp only
          rw [readFillHatch_ok hp]
          constructor
          · rintro ⟨c, hc, rfl⟩
            obtain ⟨k, r, rfl, hk⟩ := isCall_some.1 h4
            exact ⟨_, .hatchWith hk hc, rfl⟩
          · rintro ⟨f, hf, rfl⟩
            cases hf with
            | color hc => exact absurd hc (d4 h4 _)
            | solid hk hc => exact absurd (isCall_unique h4 (call_of hk)).1 (by decide)
            | hatch hk _ => exact absurd h4 (kw_disjoint (word_of hk))
            | hatchWith hk hm => rw [(isCall_unique h4 (call_of hk)).2]; exact ⟨_, hm, rfl⟩
        | none =>
          simp only
          rw [readFillSolid_ok hp]
          constructor
          · rintro ⟨c, hc, rfl⟩; exact ⟨_, .color hc, rfl⟩
          · rintro ⟨f, hf, rfl⟩
            cases hf with
            | color hc => exact ⟨_, hc, rfl⟩
            | solid hk hc => exact absurd (h2 ▸ call_of hk) (by simp)
            | hatch hk _ => exact absurd (word_of hk) h3
            | hatchWith hk _ => exact absurd (h4 ▸ call_of hk) (by simp)

/-- The first argument of a short stroke is a size, so it is no keyword. -/
theorem word_not_size {args : List Expr} {w : Str} (hw : isWord args w = true) (hs : E.stod w = none) (v : ℝ) :
    ¬ IsSize E args v := by
  rintro ⟨e, rest, rfl, h⟩
  rcases isWord_iff.1 hw with rfl | rfl <;> simp [exprToNumber, Expr.isValue, Expr.getValue, hs] at h

theorem call_not_size {args as : List Expr} {w : Str} (hw : isCall args w = some as) (v : ℝ) : ¬ IsSize E args v := by
  rintro ⟨e, rest, rfl, h⟩
  obtain ⟨k, r, heq, _⟩ := isCall_some.1 hw
  simp only [List.cons.injEq] at heq
  rw [heq.1] at h
  simp [exprToNumber, Expr.isValue] at h

/-- C78: a `stroke` setting is accepted exactly if it is a width and a colour, `solid`, `solid(settings)`, `dash` or
`dash(settings)`, and adds exactly that stroke on top of the fills and strokes given before. -/
theorem C78_stroke (E : ReadEnv) (hp : E.palette ≠ []) (hn : E.stod "solid".toList = none ∧ E.stod "dash".toList = none)
    (args : List Expr) (s s' : Compound) :
    readStroke E args s = (s', none) ↔ ∃ f, StrokeMeans E args f ∧ s' = both s f := by
  have d1 : ∀ {a b v}, isWord [a, b] ['s', 'o', 'l', 'i', 'd'] = true → ¬ IsSize E [a] v := by
    intro a b v h; exact word_not_size (w := ['s', 'o', 'l', 'i', 'd']) (isWord_iff.2 (isWord_iff.1 h)) hn.1 v
  have d2 : ∀ {a b v}, isWord [a, b] ['d', 'a', 's', 'h'] = true → ¬ IsSize E [a] v := by
    intro a b v h; exact word_not_size (w := ['d', 'a', 's', 'h']) (isWord_iff.2 (isWord_iff.1 h)) hn.2 v
  have d3 : ∀ {a b as v w}, isCall [a, b] w = some as → ¬ IsSize E [a] v := by
    intro a b as v w h
    obtain ⟨k, r, heq, hk⟩ := isCall_some.1 h
    simp only [List.cons.injEq] at heq
    rw [heq.1]
    exact call_not_size (isCall_some.2 ⟨k, [], rfl, hk⟩) v
  unfold readStroke
  by_cases h1 : isWord args ['s', 'o', 'l', 'i', 'd'] = true
  · rw [if_pos h1, readStrokeSolid_ok hp]
    constructor
    · rintro ⟨h, hm, rfl⟩
      obtain ⟨k, r, rfl, hk⟩ := isWord_true h1
      exact ⟨_, .solid hk hm, rfl⟩
    · rintro ⟨f, hf, rfl⟩
      cases hf with
      | short ha hb => exact absurd ha (d1 h1)
      | solid hk hm => exact ⟨_, hm, rfl⟩
      | solidWith hk _ => exact absurd (call_of hk) (kw_disjoint h1)
      | dash hk _ => exact absurd (isWord_unique h1 (word_of hk)) (by decide)
      | dashWith hk _ => exact absurd (call_of hk) (kw_disjoint h1)
  · rw [if_neg h1]
    cases h2 : isCall args ['s', 'o', 'l', 'i', 'd'] with
    | some as =>
      simp only
      rw [readStrokeSolid_ok hp]
      constructor
      · rintro ⟨c, hc, rfl⟩
        obtain ⟨k, r, rfl, hk⟩ := isCall_some.1 h2
        exact ⟨_, .solidWith hk hc, rfl⟩
      · rintro ⟨f, hf, rfl⟩
        cases hf with
        | short ha hb => exact absurd ha (d3 h2)
        | solid hk hc => exact absurd h2 (kw_disjoint (word_of hk))
        | solidWith hk hm => rw [(isCall_unique h2 (call_of hk)).2]; exact ⟨_, hm, rfl⟩
        | dash hk _ => exact absurd h2 (kw_disjoint (word_of hk))
        | dashWith hk _ => exact absurd (isCall_unique h2 (call_of hk)).1 (by decide)
    | none =>
      simp only
      by_cases h3 : isWord args ['d', 'a', 's', 'h'] = true
      · rw [if_pos h3, readStrokeDash_ok hp]
        constructor
        · rintro ⟨h, hm, rfl⟩
          obtain ⟨k, r, rfl, hk⟩ := isWord_true h3
          exact ⟨_, .dash hk hm, rfl⟩
        · rintro ⟨f, hf, rfl⟩
          cases hf with
          | short ha hb => exact absurd ha (d2 h3)
          | solid hk hc => exact absurd (isWord_unique h3 (word_of hk)) (by decide)
          | solidWith hk _ => exact absurd (call_of hk) (kw_disjoint h3)
          | dash hk hm => exact ⟨_, hm, rfl⟩
          | dashWith hk _ => exact absurd (call_of hk) (kw_disjoint h3)
      · rw [if_neg h3]
        cases h4 : isCall args ['d', 'a', 's', 'h'] with
        | some as =>
          simp only
          rw [readStrokeDash_ok hp]
          constructor
          · rintro ⟨c, hc, rfl⟩
            obtain ⟨k, r, rfl, hk⟩ := isCall_some.1 h4
            exact ⟨_, .dashWith hk hc, rfl⟩
          · rintro ⟨f, hf, rfl⟩
            cases hf with
            | short ha hb => exact absurd ha (d3 h4)
            | solid hk hc => exact absurd h4 (kw_disjoint (word_of hk))
            | solidWith hk _ => exact absurd (isCall_unique h4 (call_of hk)).1 (by decide)
            | dash hk _ => exact absurd h4 (kw_disjoint (word_of hk))
            | dashWith hk hm => rw [(isCall_unique h4 (call_of hk)).2]; exact ⟨_, hm, rfl⟩
        | none =>
          simp only
          rw [readStrokeShort_ok hp]
          constructor
          · rintro ⟨a, b, w, c, rfl, ha, hb, rfl⟩; exact ⟨_, .short ha hb, rfl⟩
          · rintro ⟨f, hf, rfl⟩
            cases hf with
            | short ha hb => exact ⟨_, _, _, _, rfl, ha, hb, rfl⟩
            | solid hk _ => exact absurd (word_of hk) h1
            | solidWith hk _ => exact absurd (h2 ▸ call_of hk) (by simp)
            | dash hk _ => exact absurd (word_of hk) h3
            | dashWith hk _ => exact absurd (h4 ▸ call_of hk) (by simp)

end
end Clip
