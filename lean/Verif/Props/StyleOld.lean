import Verif.Props.Style
set_option linter.unusedSimpArgs false
/-! Property theorems C79 (styles of the plot elements), C80 (small converters). -/
namespace Clip
open Commands Settings Drawing
section
variable {E : ReadEnv}

theorem length_ok (e : Expr) (es : List Expr) (v : ℝ) :
    (∃ m, readMeasureN E (e :: es) = .ok m ∧ m.value = v) ↔ IsLength E 1 e v := by
  have u0 : "".toList = [] := rfl
  have u1 : "px".toList = ['p', 'x'] := rfl
  have u2 : "pt".toList = ['p', 't'] := rfl
  have u3 : "mm".toList = ['m', 'm'] := rfl
  have u4 : "em".toList = ['e', 'm'] := rfl
  have u5 : "rem".toList = ['r', 'e', 'm'] := rfl
  have u6 : "%".toList = ['%'] := rfl
  have u7 : "rel".toList = ['r', 'e', 'l'] := rfl
  constructor
  · rintro ⟨m, hm, rfl⟩
    have hv : ∃ s, (e = .literal s ∨ e = .value s) ∧ readMeasureN E (e :: es) =
      match parseMeasure E.stod s with
      | .error x => .error (.error (.measure x))
      | .ok m => .ok (measureNormalize ⟨E.size.dpi, ⟨.unit, layerSize E.size.fontSize E.size.dpi⟩, ⟨.unit, 0⟩⟩ m) := by
      cases e with
      | list l => simp [readMeasureN, Expr.isValue] at hm
      | literal s => exact ⟨s, .inl rfl, rfl⟩
      | value s => exact ⟨s, .inr rfl, rfl⟩
    obtain ⟨s, hs, hr⟩ := hv
    rw [hr] at hm
    unfold parseMeasure at hm
    cases hd : E.stod s with
    | none => rw [hd] at hm; cases hm
    | some vp =>
      obtain ⟨v, pos⟩ := vp
      rw [hd] at hm
      simp only at hm
      have lt : ∀ {c : Char} {cs : Str}, s.drop pos = c :: cs → pos ≤ s.length := by
        intro c cs h
        by_contra hlt
        rw [List.drop_eq_nil_of_le (by omega)] at h
        cases h
      by_cases h0 : pos = s.length
      · rw [if_pos h0] at hm
        simp only [measureNormalize, Except.ok.injEq] at hm
        subst hm
        have := IsLength.mk (E := E) (mm := 1) (u := "") (f := 1) hs hd (by omega) (by rw [h0]; simp) (by simp)
        simpa using this
      · rw [if_neg h0] at hm
        by_cases h1 : s.drop pos = ['m', 'm']
        · rw [if_pos h1] at hm
          simp only [measureNormalize, Except.ok.injEq] at hm
          subst hm
          have := IsLength.mk (E := E) (mm := 1) (u := "mm") (f := 1) hs hd (lt h1) h1 (by simp)
          simpa using this
        rw [if_neg h1] at hm
        by_cases h2 : s.drop pos = ['p', 'x']
        · rw [if_pos h2] at hm
          simp only [measureNormalize, Except.ok.injEq] at hm
          subst hm
          have := IsLength.mk (E := E) (mm := 1) (u := "px") (f := 1) hs hd (lt h2) h2 (by simp)
          simpa using this
        rw [if_neg h2] at hm
        by_cases h3 : s.drop pos = ['p', 't']
        · rw [if_pos h3] at hm
          simp only [measureNormalize, Except.ok.injEq] at hm
          subst hm
          have := IsLength.mk (E := E) (mm := 1) (u := "pt") (f := E.size.dpi / 72) hs hd (lt h3) h3 (by simp)
          have e' : v * (E.size.dpi / 72) = v / 72 * E.size.dpi := by ring
          rw [e'] at this
          exact this
        rw [if_neg h3] at hm
        by_cases h4 : s.drop pos = ['e', 'm'] ∨ s.drop pos = ['r', 'e', 'm']
        · rw [if_pos h4] at hm
          simp only [measureNormalize, convFontSize, Except.ok.injEq] at hm
          subst hm
          rcases h4 with h4 | h4
          · exact IsLength.mk (E := E) (mm := 1) (u := "em") hs hd (lt h4) h4 (by simp)
          · exact IsLength.mk (E := E) (mm := 1) (u := "rem") hs hd (lt h4) h4 (by simp)
        rw [if_neg h4] at hm
        by_cases h5 : s.drop pos = ['%']
        · rw [if_pos h5] at hm
          simp only [measureNormalize, convParentSize, Except.ok.injEq] at hm
          subst hm
          have := IsLength.mk (E := E) (mm := 1) (u := "%") (f := 0) hs hd (lt h5) h5 (by simp)
          simpa using this
        rw [if_neg h5] at hm
        by_cases h6 : s.drop pos = ['r', 'e', 'l']
        · rw [if_pos h6] at hm
          simp only [measureNormalize, convParentSize, Except.ok.injEq] at hm
          subst hm
          have := IsLength.mk (E := E) (mm := 1) (u := "rel") (f := 0) hs hd (lt h6) h6 (by simp)
          simpa using this
        rw [if_neg h6] at hm
        cases hm
  · rintro ⟨hs, hd, hle, hu, ht⟩
    rename_i s v pos u f
    have hr : readMeasureN E (e :: es) =
      match parseMeasure E.stod s with
      | .error x => .error (.error (.measure x))
      | .ok m => .ok (measureNormalize ⟨E.size.dpi, ⟨.unit, layerSize E.size.fontSize E.size.dpi⟩, ⟨.unit, 0⟩⟩ m) := by
      rcases hs with rfl | rfl <;> rfl
    rw [hr]
    unfold parseMeasure
    rw [hd]
    simp only
    by_cases h0 : pos = s.length
    · rw [if_pos h0]
      have : u.toList = [] := by rw [← hu, h0]; simp
      have hu' : u = "" := by rw [← String.ofList_toList (s := u), this]
      subst hu'
      simp at ht
      exact ⟨_, rfl, by simp [measureNormalize, ht]⟩
    · rw [if_neg h0]
      simp only [List.mem_cons, Prod.mk.injEq, List.not_mem_nil, or_false] at ht
      rcases ht with ⟨rfl, rfl⟩ | ⟨rfl, rfl⟩ | ⟨rfl, rfl⟩ | ⟨rfl, rfl⟩ | ⟨rfl, rfl⟩ | ⟨rfl, rfl⟩ | ⟨rfl, rfl⟩ | ⟨rfl, rfl⟩
      · rw [u0] at hu
        have hl := congrArg List.length hu
        simp only [List.length_drop, List.length_nil] at hl
        omega
      all_goals
        simp only [u1, u2, u3, u4, u5, u6, u7] at hu
        rw [hu]
        refine ⟨_, rfl, ?_⟩
        simp [measureNormalize, convFontSize, convParentSize]
        try ring

theorem IsLength.unique {e : Expr} {a b : ℝ} (h : IsLength E 1 e a) (h' : IsLength E 1 e b) : a = b := by
  rw [← length_ok e []] at h h'
  obtain ⟨m, hm, rfl⟩ := h
  obtain ⟨m', hm', rfl⟩ := h'
  rw [hm] at hm'; cases hm'; rfl

theorem first_ok {args : List Expr} {v : ℝ} :
    (∃ m, readMeasureN E args = .ok m ∧ m.value = v) ↔ FirstLength E 1 args v := by
  cases args with
  | nil => simp [readMeasureN, FirstLength]
  | cons e es =>
    rw [length_ok]
    simp only [FirstLength, List.cons.injEq]
    exact ⟨fun h => ⟨e, es, ⟨rfl, rfl⟩, h⟩, by rintro ⟨_, _, ⟨rfl, rfl⟩, h⟩; exact h⟩

theorem FirstLength.unique {args : List Expr} {a b : ℝ} (h : FirstLength E 1 args a) (h' : FirstLength E 1 args b) : a = b := by
  rw [← first_ok] at h h'
  obtain ⟨m, hm, rfl⟩ := h
  obtain ⟨m', hm', rfl⟩ := h'
  rw [hm] at hm'; cases hm'; rfl

theorem each_ok (args : List Expr) (vs : List ℝ) :
    (∃ ms, readEach (readMeasureN E) args = .ok ms ∧ ms.map (·.value) = vs) ↔ List.Forall₂ (IsLength E 1) args vs := by
  have h1 : ∀ ms, readEach (readMeasureN E) args = .ok ms ↔ List.Forall₂ (fun e m => readMeasureN E [e] = .ok m) args ms :=
    readEach_ok (fun e es m => Iff.rfl) args
  simp only [h1]
  induction args generalizing vs with
  | nil => cases vs <;> simp
  | cons e es ih =>
    have ih := ih (vs := vs.tail) (readEach_ok (fun e es m => Iff.rfl) es)
    constructor
    · rintro ⟨ms, h, rfl⟩
      cases h with
      | cons a b => exact .cons ((length_ok e [] _).1 ⟨_, a, rfl⟩) (ih.1 ⟨_, b, rfl⟩)
    · intro h
      cases h with
      | cons a b =>
        obtain ⟨m, hm, hv⟩ := (length_ok e [] _).2 a
        obtain ⟨ms, hms, hvs⟩ := ih.2 b
        simp only [List.tail_cons] at hvs
        exact ⟨m :: ms, .cons hm hms, by simp [hv, hvs]⟩

theorem Lengths.unique {args : List Expr} {a b : List ℝ} (h : List.Forall₂ (IsLength E 1) args a)
    (h' : List.Forall₂ (IsLength E 1) args b) : a = b := by
  rw [← each_ok] at h h'
  obtain ⟨m, hm, rfl⟩ := h
  obtain ⟨m', hm', rfl⟩ := h'
  rw [hm] at hm'; cases hm'; rfl

theorem hatchStyle_executed (hp : E.palette ≠ []) {cmds : List Expr} {h₀ h : HatchArgs}
    (he : Executed (hatchStyleTable E) cmds h₀ h) :
    Final (IsColor E) "color".toList cmds h₀.color h.color ∧
    Final (IsNumber E) "angle".toList cmds h₀.angle h.angle ∧
    Final (FirstLength E 1) "offset".toList cmds h₀.offset.value h.offset.value ∧
    Final (FirstLength E 1) "stride".toList cmds h₀.stride.value h.stride.value ∧
    Final (FirstLength E 1) "width".toList cmds h₀.width.value h.width.value := by
  refine ⟨executed_final (get := (·.color)) ?_ ?_ he, executed_final (get := (·.angle)) ?_ ?_ he,
    executed_final (get := (·.offset.value)) ?_ ?_ he, executed_final (get := (·.stride.value)) ?_ ?_ he,
    executed_final (get := (·.width.value)) ?_ ?_ he⟩
  all_goals simp only [w_color, w_width, w_stride, w_angle, w_offset]
  all_goals
    first
    | (intro h args s s₁ hf hr
       simp only [hatchStyleTable, List.cons.injEq, Char.reduceEq, false_and, and_false, and_self, if_false, if_true,
         Option.some.injEq] at hf
       subst hf
       rw [field_ok] at hr
       obtain ⟨v, hv, rfl⟩ := hr
       first | exact (readColor_ok hp _ _ _).1 hv | exact first_ok.1 ⟨_, hv, rfl⟩ | exact readFloat_ok.1 hv)
    | (intro n h args s s₁ hn hf hr
       simp only [hatchStyleTable] at hf
       repeat' split at hf
       all_goals first
         | (simp only [Option.some.injEq] at hf
            subst hf
            rw [field_ok] at hr
            obtain ⟨v, hv, rfl⟩ := hr
            first | rfl | (exfalso; apply hn; assumption))
         | cases hf)

theorem hatchStyle_accept (hp : E.palette ≠ []) (cmds : List Expr) (h₀ : HatchArgs) :
    (∃ h, Executed (hatchStyleTable E) cmds h₀ h) ↔ ∀ c ∈ cmds, ∃ n, nameOf c = some n ∧
    ((n = "color".toList ∧ ∃ v, IsColor E (argsOf c) v) ∨
     (n ∈ ["width".toList, "stride".toList, "offset".toList] ∧ ∃ v, FirstLength E 1 (argsOf c) v) ∨
     (n = "angle".toList ∧ ∃ v, IsNumber E (argsOf c) v)) := by
  refine executed_iff_all (ok := fun n args => ((n = "color".toList ∧ ∃ v, IsColor E args v) ∨
     (n ∈ ["width".toList, "stride".toList, "offset".toList] ∧ ∃ v, FirstLength E 1 args v) ∨
     (n = "angle".toList ∧ ∃ v, IsNumber E args v))) ?_ ?_ cmds h₀
  · intro n h args s s₁ hf hr
    simp only [hatchStyleTable] at hf
    simp only [w_color, w_width, w_stride, w_angle, w_offset, mem3]
    repeat' split at hf
    all_goals first
      | (simp only [Option.some.injEq] at hf
         subst hf
         rw [field_ok] at hr
         obtain ⟨v, hv, rfl⟩ := hr
         subst_vars
         first
         | (have := (readColor_ok hp _ _ _).1 hv; simp; exact ⟨v, this⟩)
         | (have := first_ok.1 ⟨_, hv, rfl⟩; simp; exact ⟨_, this⟩)
         | (have := readFloat_ok.1 hv; simp; exact ⟨v, this⟩))
      | cases hf
  · intro n args s hok
    simp only [w_color, w_width, w_stride, w_angle, w_offset, mem3] at hok
    rcases hok with ⟨rfl, v, hv⟩ | ⟨rfl | rfl | rfl, v, hv⟩ | ⟨rfl, v, hv⟩
    · refine ⟨_, _, by simp only [hatchStyleTable, List.cons.injEq, Char.reduceEq, false_and, and_false, and_self, if_false, if_true]; rfl, field_ok.2 ⟨v, ?_, rfl⟩⟩
      exact (readColor_ok hp _ _ _).2 hv
    iterate 3
      · obtain ⟨m, hm, _⟩ := first_ok.2 hv
        exact ⟨_, _, by simp only [hatchStyleTable, List.cons.injEq, Char.reduceEq, false_and, and_false, and_self, if_false, if_true]; rfl, field_ok.2 ⟨m, hm, rfl⟩⟩
    · refine ⟨_, _, by simp only [hatchStyleTable, List.cons.injEq, Char.reduceEq, false_and, and_false, and_self, if_false, if_true]; rfl, field_ok.2 ⟨v, ?_, rfl⟩⟩
      exact readFloat_ok.2 hv

theorem dashStyle_executed {cmds : List Expr} {h₀ h : StrokeState} (he : Executed (dashStyleTable E) cmds h₀ h) :
    Final (List.Forall₂ (IsLength E 1)) "pattern".toList cmds (h₀.pattern.map (·.value)) (h.pattern.map (·.value)) ∧
    Final (FirstLength E 1) "offset".toList cmds h₀.offset.value h.offset.value ∧
    h.width = h₀.width ∧ h.color = h₀.color ∧ h.dashed = h₀.dashed := by
  refine ⟨executed_final (get := (·.pattern.map (·.value))) ?_ ?_ he, executed_final (get := (·.offset.value)) ?_ ?_ he, ?_⟩
  rotate_right
  · induction he with
    | nil s => exact ⟨rfl, rfl, rfl⟩
    | @cons n args rest s s₁ s' h hn hf hr _ ih =>
      simp only [dashStyleTable] at hf
      repeat' split at hf
      all_goals first
         | (simp only [Option.some.injEq] at hf
            subst hf
            rw [field_ok] at hr
            obtain ⟨v, hv, rfl⟩ := hr
            exact ih)
         | cases hf
  all_goals simp only [w_pattern, w_offset]
  all_goals
    first
    | (intro h args s s₁ hf hr
       simp only [dashStyleTable, List.cons.injEq, Char.reduceEq, false_and, and_false, and_self, if_false, if_true,
         Option.some.injEq] at hf
       subst hf
       rw [field_ok] at hr
       obtain ⟨v, hv, rfl⟩ := hr
       first | exact first_ok.1 ⟨_, hv, rfl⟩ | exact (each_ok _ _).1 ⟨_, hv, rfl⟩)
    | (intro n h args s s₁ hn hf hr
       simp only [dashStyleTable] at hf
       repeat' split at hf
       all_goals first
         | (simp only [Option.some.injEq] at hf
            subst hf
            rw [field_ok] at hr
            obtain ⟨v, hv, rfl⟩ := hr
            first | rfl | (exfalso; apply hn; assumption))
         | cases hf)

theorem dashStyle_accept (cmds : List Expr) (h₀ : StrokeState) :
    (∃ h, Executed (dashStyleTable E) cmds h₀ h) ↔ ∀ c ∈ cmds, ∃ n, nameOf c = some n ∧
      ((n = "pattern".toList ∧ ∃ vs, List.Forall₂ (IsLength E 1) (argsOf c) vs) ∨
       (n = "offset".toList ∧ ∃ v, FirstLength E 1 (argsOf c) v)) := by
  refine executed_iff_all (ok := fun n args => (n = "pattern".toList ∧ ∃ vs, List.Forall₂ (IsLength E 1) args vs) ∨
       (n = "offset".toList ∧ ∃ v, FirstLength E 1 args v)) ?_ ?_ cmds h₀
  · intro n h args s s₁ hf hr
    simp only [dashStyleTable] at hf
    simp only [w_pattern, w_offset]
    repeat' split at hf
    all_goals first
      | (simp only [Option.some.injEq] at hf
         subst hf
         rw [field_ok] at hr
         obtain ⟨v, hv, rfl⟩ := hr
         subst_vars
         first
         | (have := first_ok.1 ⟨_, hv, rfl⟩; simp; exact ⟨_, this⟩)
         | (have := (each_ok _ _).1 ⟨_, hv, rfl⟩; simp; exact ⟨_, this⟩))
      | cases hf
  · intro n args s hok
    simp only [w_pattern, w_offset] at hok
    rcases hok with ⟨rfl, v, hv⟩ | ⟨rfl, v, hv⟩
    · obtain ⟨m, hm, _⟩ := (each_ok _ _).2 hv
      exact ⟨_, _, by simp only [dashStyleTable, List.cons.injEq, Char.reduceEq, false_and, and_false, and_self, if_false, if_true]; rfl, field_ok.2 ⟨m, hm, rfl⟩⟩
    · obtain ⟨m, hm, _⟩ := first_ok.2 hv
      exact ⟨_, _, by simp only [dashStyleTable, List.cons.injEq, Char.reduceEq, false_and, and_false, and_self, if_false, if_true]; rfl, field_ok.2 ⟨m, hm, rfl⟩⟩

/-- What `stroke_style_read_dash` makes of its settings, in terms of the specification. -/
theorem readDashStyle_ok (cmds : List Expr) (k : StrokeState) (t : StrokeStyle) :
    (∃ k', readDashStyle E cmds k = (k', none) ∧ k'.style = t) ↔
    (∀ c ∈ cmds, ∃ n, nameOf c = some n ∧
        ((n = "pattern".toList ∧ ∃ vs, List.Forall₂ (IsLength E 1) (argsOf c) vs) ∨
         (n = "offset".toList ∧ ∃ v, FirstLength E 1 (argsOf c) v))) ∧
    ∃ offset pattern, Final (List.Forall₂ (IsLength E 1)) "pattern".toList cmds [pt E 2, pt E 2] pattern ∧
      Final (FirstLength E 1) "offset".toList cmds k.offset.value offset ∧
      t = { k.style with dash := some (offset, pattern) } := by
  unfold readDashStyle
  simp only [walkRead_ok]
  constructor
  · rintro ⟨k', he, rfl⟩
    refine ⟨(dashStyle_accept _ _).1 ⟨_, he⟩, ?_⟩
    obtain ⟨h1, h2, h3, h4, h5⟩ := dashStyle_executed he
    refine ⟨_, k'.pattern.map (·.value), ?_, h2, ?_⟩
    · simpa only [pt_eq, List.map_cons, List.map_nil] using h1
    · simp [StrokeState.style, h3, h4, h5]
  · rintro ⟨ha, o, p, h1, h2, rfl⟩
    obtain ⟨k', he⟩ := (dashStyle_accept (E := E) cmds
      { k with dashed := true, pattern := [⟨.unit, unitFromPt 2 E.size.dpi⟩, ⟨.unit, unitFromPt 2 E.size.dpi⟩] }).2 ha
    refine ⟨k', he, ?_⟩
    obtain ⟨g1, g2, g3, g4, g5⟩ := dashStyle_executed he
    simp only [pt_eq, List.map_cons, List.map_nil] at g1
    have e1 := Final.unique (fun args a b => Lengths.unique (args := args) (a := a) (b := b)) g1 h1
    have e2 := Final.unique (fun args a b => FirstLength.unique (args := args) (a := a) (b := b)) g2 h2
    simp [StrokeState.style, g3, g4, g5, e1, e2]

theorem readHatchStyle_ok (hp : E.palette ≠ []) (cmds : List Expr) (f f' : FillStyle) :
    readHatchStyle E cmds f = (f', none) ↔
      (∀ c ∈ cmds, ∃ n, nameOf c = some n ∧
        ((n = "color".toList ∧ ∃ v, IsColor E (argsOf c) v) ∨
         (n ∈ ["width".toList, "stride".toList, "offset".toList] ∧ ∃ v, FirstLength E 1 (argsOf c) v) ∨
         (n = "angle".toList ∧ ∃ v, IsNumber E (argsOf c) v))) ∧
      ∃ c angle offset stride width, Final (IsColor E) "color".toList cmds .black c ∧
      Final (IsNumber E) "angle".toList cmds (-45) angle ∧
      Final (FirstLength E 1) "offset".toList cmds 0 offset ∧
      Final (FirstLength E 1) "stride".toList cmds (pt E 3) stride ∧
      Final (FirstLength E 1) "width".toList cmds (pt E 1) width ∧
      f' = ⟨some c, some (angle, offset, stride, width)⟩ := by
  unfold readHatchStyle
  rcases walkRead_cases (hatchStyleTable E) cmds
    ⟨.black, -45, ⟨.unit, 0⟩, ⟨.unit, unitFromPt 3 E.size.dpi⟩, ⟨.unit, unitFromPt 1 E.size.dpi⟩⟩ with ⟨h, e, he⟩ | ⟨h, x, e, he⟩
  · rw [e]
    obtain ⟨g1, g2, g3, g4, g5⟩ := hatchStyle_executed hp he
    simp only [pt_eq] at g4 g5
    simp only [Prod.mk.injEq, and_true]
    constructor
    · rintro rfl
      exact ⟨(hatchStyle_accept hp _ _).1 ⟨_, he⟩, _, _, _, _, _, g1, g2, g3, g4, g5, rfl⟩
    · rintro ⟨_, c, a, o, s, w, h1, h2, h3, h4, h5, rfl⟩
      rw [Final.unique (fun args a b => IsColor.unique (args := args) (a := a) (b := b) hp) g1 h1,
        Final.unique (fun args a b => IsNumber.unique (args := args) (a := a) (b := b)) g2 h2,
        Final.unique (fun args a b => FirstLength.unique (args := args) (a := a) (b := b)) g3 h3,
        Final.unique (fun args a b => FirstLength.unique (args := args) (a := a) (b := b)) g4 h4,
        Final.unique (fun args a b => FirstLength.unique (args := args) (a := a) (b := b)) g5 h5]
  · rw [e]
    simp only [Prod.mk.injEq, reduceCtorEq, and_false, false_iff]
    rintro ⟨ha, _⟩
    obtain ⟨h', he'⟩ := (hatchStyle_accept hp cmds _).2 ha
    exact he _ he'

theorem calls_iff (args : List Expr) (w : String) :
    (isWord args w.toList || (isCall args w.toList).isSome) = true ↔ Calls args w := by
  rw [Bool.or_eq_true, Option.isSome_iff_exists]
  constructor
  · rintro (h | ⟨as, h⟩)
    · obtain ⟨k, r, rfl, hk⟩ := isWord_true h; exact ⟨k, r, hk, .inl rfl⟩
    · obtain ⟨k, r, rfl, hk⟩ := isCall_some.1 h; exact ⟨k, r, hk, .inr ⟨as, rfl⟩⟩
  · rintro ⟨k, r, hk, rfl | ⟨as, rfl⟩⟩
    · exact .inl (word_of hk)
    · exact .inr ⟨as, call_of hk⟩

/-- A call of one of these words, as the code tests it. -/
theorem callsWith_iff (args cmds : List Expr) (a b : String) (hab : a ≠ b) :
    CallsWith args [a, b] cmds ↔
      ((isWord args a.toList = true ∨ isWord args b.toList = true) ∧ cmds = []) ∨ isCall args a.toList = some cmds ∨
        isCall args b.toList = some cmds := by
  constructor
  · rintro ⟨k, r, w, hw, hk, ⟨rfl, rfl⟩ | rfl⟩
    · rcases mem2.1 hw with rfl | rfl
      · exact .inl ⟨.inl (word_of hk), rfl⟩
      · exact .inl ⟨.inr (word_of hk), rfl⟩
    · rcases mem2.1 hw with rfl | rfl
      · exact .inr (.inl (call_of hk))
      · exact .inr (.inr (call_of hk))
  · rintro (⟨h | h, rfl⟩ | h | h)
    · obtain ⟨k, r, rfl, hk⟩ := isWord_true h; exact ⟨k, r, a, by simp, hk, .inl ⟨rfl, rfl⟩⟩
    · obtain ⟨k, r, rfl, hk⟩ := isWord_true h; exact ⟨k, r, b, by simp, hk, .inl ⟨rfl, rfl⟩⟩
    · obtain ⟨k, r, rfl, hk⟩ := isCall_some.1 h; exact ⟨k, r, a, by simp, hk, .inr rfl⟩
    · obtain ⟨k, r, rfl, hk⟩ := isCall_some.1 h; exact ⟨k, r, b, by simp, hk, .inr rfl⟩

/-- The word an argument list begins with. -/
def headWord : List Expr → Option Str
  | .literal w :: _ => some w
  | .value w :: _ => some w
  | .list (.literal w :: _) :: _ => some w
  | .list (.value w :: _) :: _ => some w
  | _ => none

theorem headWord_calls {args : List Expr} {w : String} (h : Calls args w) : headWord args = some w.toList := by
  obtain ⟨k, r, hk, rfl | ⟨as, rfl⟩⟩ := h <;> rcases hk with rfl | rfl <;> rfl

theorem headWord_callsWith {args cmds : List Expr} {ws : List String} (h : CallsWith args ws cmds) :
    ∃ w ∈ ws, headWord args = some w.toList := by
  obtain ⟨k, r, w, hw, hk, ⟨rfl, rfl⟩ | rfl⟩ := h <;> rcases hk with rfl | rfl <;> exact ⟨w, hw, rfl⟩

theorem headWord_word {args : List Expr} {w : Str} (h : isWord args w = true) : headWord args = some w := by
  obtain ⟨k, r, rfl, hk⟩ := isWord_true h
  rcases hk with rfl | rfl <;> rfl

theorem headWord_call {args as : List Expr} {w : Str} (h : isCall args w = some as) : headWord args = some w := by
  obtain ⟨k, r, rfl, hk⟩ := isCall_some.1 h
  rcases hk with rfl | rfl <;> rfl

theorem no_word {args : List Expr} {v w : Str} (h : headWord args = some v) (hne : v ≠ w) : isWord args w = false := by
  by_contra h'
  rw [headWord_word (by simpa using h')] at h
  exact hne (by simpa using h.symm)

theorem no_call {args : List Expr} {v w : Str} (h : headWord args = some v) (hne : v ≠ w) : isCall args w = none := by
  by_contra h'
  obtain ⟨as, ha⟩ := Option.ne_none_iff_exists'.1 h'
  rw [headWord_call ha] at h
  exact hne (by simpa using h.symm)

theorem calls_not_color {args : List Expr} {w : String} (h : Calls args w) (h1 : beginsWith w.toList ['#'] = false)
    (h0 : isDigitText w.toList = false) (h2 : w.toList ≠ "rgb".toList) (h3 : w.toList ≠ "rgba".toList) (c : Color) :
    ¬ IsColor E args c := by
  obtain ⟨k, r, hk, rfl | ⟨as, rfl⟩⟩ := h
  · exact word_not_color (word_of hk) h1 h0 c
  · exact call_not_color (call_of hk) h2 h3 c

theorem CallsWith.calls {args cmds : List Expr} {ws : List String} (h : CallsWith args ws cmds) : ∃ w ∈ ws, Calls args w := by
  obtain ⟨k, r, w, hw, hk, ⟨rfl, rfl⟩ | rfl⟩ := h
  · exact ⟨w, hw, k, r, hk, .inl rfl⟩
  · exact ⟨w, hw, k, r, hk, .inr ⟨_, rfl⟩⟩

/-- C79: a `fill` setting of a plot element is accepted exactly if it is `none`, `hatch` (with settings) or a colour, and
means that.  Partial: a millimetre is one device unit long, and a colour does not switch a hatch off. -/
theorem C79_fill_partial (E : ReadEnv) (hp : E.palette ≠ []) (args : List Expr) (f f' : FillStyle) :
    readFillStyle E args f = (f', none) ↔ FillStyleMeans E 1 args f f' := by
  have hN := calls_iff args "none"
  have hH := callsWith_iff args
  unfold readFillStyle
  rw [show ['n', 'o', 'n', 'e'] = "none".toList from rfl, show ['h', 'a', 't', 'c', 'h'] = "hatch".toList from rfl,
    show ['h', 'a', 't', 'c', 'h', 'e', 'd'] = "hatched".toList from rfl]
  constructor
  · intro h
    by_cases h1 : (isWord args "none".toList || (isCall args "none".toList).isSome) = true
    · rw [if_pos h1] at h
      cases h
      exact .none (hN.1 h1)
    rw [if_neg h1] at h
    by_cases h2 : (isWord args "hatch".toList || isWord args "hatched".toList) = true
    · rw [if_pos h2, readHatchStyle_ok hp] at h
      obtain ⟨ha, c, a, o, st, w, g1, g2, g3, g4, g5, rfl⟩ := h
      exact .hatch ((hH [] "hatch" "hatched" (by decide)).2 (.inl ⟨by simpa using h2, rfl⟩)) ha g1 g2 g3 g4 g5
    rw [if_neg h2] at h
    cases h3 : isCall args "hatch".toList with
    | some as =>
      rw [h3] at h
      simp only [readHatchStyle_ok hp] at h
      obtain ⟨ha, c, a, o, st, w, g1, g2, g3, g4, g5, rfl⟩ := h
      exact .hatch ((hH as "hatch" "hatched" (by decide)).2 (.inr (.inl h3))) ha g1 g2 g3 g4 g5
    | none =>
      rw [h3] at h
      simp only at h
      cases h4 : isCall args "hatched".toList with
      | some as =>
        rw [h4] at h
        simp only [readHatchStyle_ok hp] at h
        obtain ⟨ha, c, a, o, st, w, g1, g2, g3, g4, g5, rfl⟩ := h
        exact .hatch ((hH as "hatch" "hatched" (by decide)).2 (.inr (.inr h4))) ha g1 g2 g3 g4 g5
      | none =>
        rw [h4] at h
        simp only at h
        split at h
        · cases h
        · unfold readFillStyleSolid at h
          rw [field_ok] at h
          obtain ⟨c, hc, rfl⟩ := h
          exact .color ((readColor_ok hp _ _ _).1 hc)
  · intro h
    cases h with
    | none hc => rw [if_pos (hN.2 hc)]
    | color hc =>
      have nc : ∀ w : String, w ∈ ["none", "hatch", "hatched"] → ¬ Calls args w := by
        intro w hw hcall
        rcases mem3.1 hw with rfl | rfl | rfl <;>
          exact calls_not_color hcall (by decide) (by decide) (by decide) (by decide) _ hc
      have b1 : ∀ w : String, w ∈ ["none", "hatch", "hatched"] → isWord args w.toList = false := by
        intro w hw
        by_contra h'
        exact nc w hw ((calls_iff args w).1 (by rw [Bool.or_eq_true]; exact .inl (by simpa using h')))
      have b2 : ∀ w : String, w ∈ ["none", "hatch", "hatched"] → isCall args w.toList = none := by
        intro w hw
        by_contra h'
        obtain ⟨as, ha⟩ := Option.ne_none_iff_exists'.1 h'
        exact nc w hw ((calls_iff args w).1 (by rw [Bool.or_eq_true, ha]; exact .inr rfl))
      rw [b1 "none" (by simp), b1 "hatch" (by simp), b1 "hatched" (by simp), b2 "none" (by simp), b2 "hatch" (by simp),
        b2 "hatched" (by simp)]
      have hne : args.isEmpty = false := by obtain ⟨e, r, rfl, _⟩ := hc; rfl
      simp only [Bool.or_self, Option.isSome_none, Bool.or_false, Bool.false_eq_true, if_false, hne]
      unfold readFillStyleSolid
      rw [field_ok]
      exact ⟨_, (readColor_ok hp _ _ _).2 hc, rfl⟩
    | hatch hcw ha g1 g2 g3 g4 g5 =>
      rename_i cmds c angle offset stride width
      have hr : readHatchStyle E cmds f = (⟨some c, some (angle, offset, stride, width)⟩, none) :=
        (readHatchStyle_ok hp _ _ _).2 ⟨ha, _, _, _, _, _, g1, g2, g3, g4, g5, rfl⟩
      have hnn : (isWord args "none".toList || (isCall args "none".toList).isSome) = false := by
        obtain ⟨w, hw, hh⟩ := headWord_callsWith hcw
        have hne : w.toList ≠ "none".toList := by rcases mem2.1 hw with rfl | rfl <;> decide
        rw [no_word hh hne, no_call hh hne]; rfl
      rw [hnn]
      simp only [Bool.false_eq_true, if_false]
      rcases (hH cmds "hatch" "hatched" (by decide)).1 hcw with ⟨h2, rfl⟩ | h3 | h4
      · rw [if_pos (by simpa using h2)]; exact hr
      · have hh := headWord_call h3
        have : isWord args "hatch".toList = false := by
          by_contra h'; exact kw_disjoint (by simpa using h') h3
        rw [this, no_word hh (by decide), h3]
        simpa using hr
      · have hh := headWord_call h4
        have : isWord args "hatched".toList = false := by
          by_contra h'; exact kw_disjoint (by simpa using h') h4
        rw [this, no_word hh (by decide), no_call hh (by decide), h4]
        simpa using hr

/-- C79: a `stroke-style` setting of a plot element is accepted exactly if it is `none`, `solid` or `dash` (with
settings), and means that.  Partial: a millimetre is one device unit long, and nothing brings back a stroke after `none`. -/
theorem C79_stroke_partial (E : ReadEnv) (args : List Expr) (k : StrokeState) (t : StrokeStyle) :
    (∃ k', readStrokeStyle E args k = (k', none) ∧ k'.style = t) ↔
      StrokeStyleMeans E 1 k.offset.value args k.style t := by
  have hN := calls_iff args "none"
  have hS := calls_iff args "solid"
  have hD := fun cmds => callsWith_iff args cmds "dash" "dashed" (by decide)
  unfold readStrokeStyle
  rw [show ['n', 'o', 'n', 'e'] = "none".toList from rfl, show ['s', 'o', 'l', 'i', 'd'] = "solid".toList from rfl,
    show ['d', 'a', 's', 'h'] = "dash".toList from rfl, show ['d', 'a', 's', 'h', 'e', 'd'] = "dashed".toList from rfl]
  have mk : ∀ cmds, CallsWith args ["dash", "dashed"] cmds → (∃ k', readDashStyle E cmds k = (k', none) ∧ k'.style = t) →
      StrokeStyleMeans E 1 k.offset.value args k.style t := by
    intro cmds hcw h
    obtain ⟨ha, o, p, h1, h2, rfl⟩ := (readDashStyle_ok _ _ _).1 h
    exact .dash hcw ha h1 h2
  constructor
  · intro h
    by_cases h1 : (isWord args "none".toList || (isCall args "none".toList).isSome) = true
    · rw [if_pos h1] at h
      obtain ⟨k', h, rfl⟩ := h
      cases h
      exact .none (hN.1 h1)
    rw [if_neg h1] at h
    by_cases h1' : (isWord args "solid".toList || (isCall args "solid".toList).isSome) = true
    · rw [if_pos h1'] at h
      obtain ⟨k', h, rfl⟩ := h
      cases h
      exact .solid (hS.1 h1')
    rw [if_neg h1'] at h
    by_cases h2 : (isWord args "dash".toList || isWord args "dashed".toList) = true
    · rw [if_pos h2] at h
      exact mk [] ((hD []).2 (.inl ⟨by simpa using h2, rfl⟩)) h
    rw [if_neg h2] at h
    cases h3 : isCall args "dash".toList with
    | some as =>
      rw [h3] at h
      exact mk as ((hD as).2 (.inr (.inl h3))) h
    | none =>
      rw [h3] at h
      simp only at h
      cases h4 : isCall args "dashed".toList with
      | some as =>
        rw [h4] at h
        exact mk as ((hD as).2 (.inr (.inr h4))) h
      | none =>
        rw [h4] at h
        obtain ⟨k', h, _⟩ := h
        cases h
  · intro h
    cases h with
    | none hc => rw [if_pos (hN.2 hc)]; exact ⟨_, rfl, rfl⟩
    | solid hc =>
      have hh := headWord_calls hc
      rw [no_word hh (by decide), no_call hh (by decide), if_neg (by simp), if_pos (hS.2 hc)]
      exact ⟨_, rfl, rfl⟩
    | dash hcw ha g1 g2 =>
      rename_i cmds offset pattern
      have hr := (readDashStyle_ok cmds k _).2 ⟨ha, offset, pattern, g1, g2, rfl⟩
      obtain ⟨w, hw, hh⟩ := headWord_callsWith hcw
      have hne : w.toList ≠ "none".toList ∧ w.toList ≠ "solid".toList := by
        rcases mem2.1 hw with rfl | rfl <;> decide
      rw [no_word hh hne.1, no_call hh hne.1, no_word hh hne.2, no_call hh hne.2, if_neg (by simp), if_neg (by simp)]
      rcases (hD cmds).1 hcw with ⟨h2, rfl⟩ | h3 | h4
      · rw [if_pos (by simpa using h2)]; exact hr
      · have hh := headWord_call h3
        have : isWord args "dash".toList = false := by
          by_contra h'; exact kw_disjoint (by simpa using h') h3
        rw [this, no_word hh (by decide), h3]
        simpa using hr
      · have hh := headWord_call h4
        have : isWord args "dashed".toList = false := by
          by_contra h'; exact kw_disjoint (by simpa using h') h4
        rw [this, no_word hh (by decide), no_call hh (by decide), h4]
        simpa using hr

/-- C79 (violated by the code): a colour given after a hatch does not replace it; the shape is hatched in the new colour. -/
theorem C79_hatch_stays (E : ReadEnv) (hp : E.palette ≠ []) (args : List Expr) (c c' : Color) (h : ℝ × ℝ × ℝ × ℝ)
    (hc : IsColor E args c) : readFillStyle E args ⟨some c', some h⟩ = (⟨some c, some h⟩, none) :=
  (C79_fill_partial E hp args _ _).2 (.color hc)

/-- C79 (violated by the code): after `none`, neither `solid` nor `dash` makes the stroke visible again. -/
theorem C79_none_sticks (E : ReadEnv) (args args' : List Expr) (k k₁ k₂ : StrokeState) (hn : Calls args "none")
    (h₁ : readStrokeStyle E args k = (k₁, none)) (h₂ : readStrokeStyle E args' k₁ = (k₂, none)) : k₂.width = 0 := by
  have g₁ := (C79_stroke_partial E args k _).1 ⟨_, h₁, rfl⟩
  have hh := headWord_calls hn
  have w₁ : k₁.style.width = 0 := by
    generalize ht : k₁.style = t at g₁
    cases g₁ with
    | none _ => rfl
    | solid hs => rw [headWord_calls hs] at hh; exact absurd hh (by decide)
    | dash hs _ _ _ =>
      obtain ⟨w, hw, h⟩ := headWord_callsWith hs
      rw [h] at hh
      rcases mem2.1 hw with rfl | rfl <;> exact absurd hh (by decide)
  have g₂ := (C79_stroke_partial E args' k₁ _).1 ⟨_, h₂, rfl⟩
  have w₂ : k₂.style.width = 0 := by
    generalize ht : k₂.style = t at g₂
    cases g₂ with
    | none _ => rfl
    | solid hs => exact w₁
    | dash hs _ _ _ => exact w₁
  exact w₂

/-- C79 (violated by the code): a dash or hatch length in millimetres is not that many millimetres. -/
theorem C79_mm_wrong (E : ReadEnv) (s : Str) (v : ℝ) (pos : Nat) (h : E.stod s = some (v, pos))
    (hu : s.drop pos = "mm".toList) (hv : v ≠ 0) (hd : E.size.dpi ≠ 25.4) :
    ∃ m, readMeasureN E [.literal s] = .ok m ∧ m.value = v ∧ m.value ≠ unitFromMm v E.size.dpi := by
  have hle : pos ≤ s.length := by
    by_contra hlt
    rw [List.drop_eq_nil_of_le (by omega)] at hu
    exact absurd hu (by decide)
  obtain ⟨m, hm, hmv⟩ := (length_ok (E := E) (.literal s) [] (v * 1)).2 (.mk (.inl rfl) h hle hu (by simp))
  rw [mul_one] at hmv
  refine ⟨m, hm, hmv, ?_⟩
  rw [hmv]
  unfold unitFromMm
  intro h'
  apply hd
  have : v * (E.size.dpi - 25.4) = 0 := by linear_combination (-25.4) * h'
  rcases mul_eq_zero.1 this with h | h
  · exact absurd h hv
  · linarith

/-- C79: a refused fill leaves the fill as it was. -/
theorem C79_fill_refused (E : ReadEnv) (args : List Expr) (f f' : FillStyle) (x : Fail)
    (h : readFillStyle E args f = (f', some x)) : f' = f := by
  have hh : ∀ cmds, readHatchStyle E cmds f = (f', some x) → f' = f := by
    intro cmds h
    unfold readHatchStyle at h
    split at h <;> cases h
    rfl
  unfold readFillStyle at h
  split at h
  · cases h
  split at h
  · exact hh _ h
  split at h
  · exact hh _ h
  split at h
  · exact hh _ h
  split at h
  · cases h; rfl
  · unfold readFillStyleSolid field at h
    split at h <;> cases h
    rfl

/-- C80: a switch is on for `on` and off for `off`, and everything else is refused. -/
theorem C80_switch (args : List Expr) (b : Bool) :
    readSwitch args = .ok b ↔ ∃ k rest, args = k :: rest ∧ IsWord k (if b then "on" else "off") := by
  unfold readSwitch
  rw [show ['o', 'n'] = "on".toList from rfl, show ['o', 'f', 'f'] = "off".toList from rfl]
  have key : ∀ w : String, isWord args w.toList = true ↔ ∃ k rest, args = k :: rest ∧ IsWord k w := by
    intro w
    constructor
    · intro h; obtain ⟨k, r, rfl, hk⟩ := isWord_true h; exact ⟨k, r, rfl, hk⟩
    · rintro ⟨k, r, rfl, hk⟩; exact word_of hk
  rw [← key]
  by_cases h1 : isWord args "on".toList = true
  · have h2 : isWord args "off".toList = false := no_word (headWord_word h1) (by decide)
    rw [if_pos h1]
    cases b <;> simp only [if_true, if_false, Bool.false_eq_true, h2, h1, reduceCtorEq, Except.ok.injEq]
  · rw [if_neg h1]
    by_cases h2 : isWord args "off".toList = true
    · rw [if_pos h2]; cases b <;> simp only [if_true, if_false, Bool.false_eq_true, h2, h1, reduceCtorEq, Except.ok.injEq]
    · rw [if_neg h2]; cases b <;> simp only [if_true, if_false, Bool.false_eq_true, h2, h1, reduceCtorEq, Except.ok.injEq]

/-- C80: a setting with a fixed set of words is the meaning of the word, and everything else is refused. -/
theorem C80_enum {α : Type} (defs : Str → Option α) (args : List Expr) (v : α) :
    readEnum defs args = .ok v ↔ ∃ w rest, (args = .literal w :: rest ∨ args = .value w :: rest) ∧ defs w = some v := by
  cases args with
  | nil => simp [readEnum]
  | cons e rest =>
    cases e with
    | list l => simp [readEnum, Expr.isValue]
    | literal w => cases h : defs w <;> simp [readEnum, Expr.isValue, Expr.getValue, h, and_assoc]
    | value w => cases h : defs w <;> simp [readEnum, Expr.isValue, Expr.getValue, h, and_assoc]

/-- C80: a pair of numbers (a range) is accepted exactly if there are two arguments and both are numbers. -/
theorem C80_pair (E : ReadEnv) (args : List Expr) (old new : Option ℝ × Option ℝ) :
    readFloatPair E args old = (new, none) ↔
      ∃ a b x y, args = [a, b] ∧ exprToFloat E.stod a = .ok x ∧ exprToFloat E.stod b = .ok y ∧ new = (some x, some y) := by
  unfold readFloatPair
  split
  · rename_i a b
    simp only [readFloat]
    cases ha : exprToFloat E.stod a with
    | error e => simp [ha]
    | ok x =>
      cases hb : exprToFloat E.stod b with
      | error e => simp [ha, hb]
      | ok y => simp [ha, hb, eq_comm]
  · rename_i hne
    simp only [Prod.mk.injEq, reduceCtorEq, and_false, false_iff]
    rintro ⟨a, b, x, y, rfl, _⟩
    exact hne a b rfl

/-- C80: a vector is accepted exactly if there are two arguments and both are numbers with a unit that is known for the
direction; the first is the x and the second the y coordinate. -/
theorem C80_vec2 (E : ReadEnv) (c1 c2 : UnitConvMap) (args : List Expr) (old new : Vec2) :
    readVec2 E.stod c1 c2 args old = (new, none) ↔ IsPair E c1 c2 args new := by
  unfold readVec2 IsPair
  split
  · rename_i a b
    simp only [readNumber]
    cases ha : exprToNumber E.stod c1 a with
    | error e =>
      simp only [liftMeasure, Prod.mk.injEq, reduceCtorEq, and_false, false_iff]
      rintro ⟨a', b', h, h1, h2⟩; cases h; rw [ha] at h1; cases h1
    | ok x =>
      cases hb : exprToNumber E.stod c2 b with
      | error e =>
        simp only [liftMeasure, Prod.mk.injEq, reduceCtorEq, and_false, false_iff]
        rintro ⟨a', b', h, h1, h2⟩; cases h; rw [hb] at h2; cases h2
      | ok y =>
        simp only [liftMeasure, Prod.mk.injEq, and_true]
        constructor
        · rintro rfl; exact ⟨a, b, rfl, ha, hb⟩
        · rintro ⟨a', b', h, h1, h2⟩
          cases h
          rw [ha] at h1; rw [hb] at h2
          cases h1; cases h2; rfl
  · rename_i hne
    simp only [Prod.mk.injEq, reduceCtorEq, and_false, false_iff]
    rintro ⟨a, b, rfl, _⟩
    exact hne a b rfl

end

/-! ## Concrete cases -/

/-- A number parser that knows a few numbers. -/
noncomputable def someStod (s : Str) : Option (ℝ × Nat) :=
  if s = ['3', 'p', 't'] then some (3, 1) else if s = ['2', 'm', 'm'] then some (2, 1)
  else if s = ['3', '0'] then some (30, 2) else none

noncomputable def someEnv : ReadEnv := ⟨someStod, defaultLayer, [⟨0, 0, 0, 1⟩, ⟨1, 1, 1, 1⟩]⟩

theorem someEnv_palette : someEnv.palette ≠ [] := by simp [someEnv]

theorem some_3pt (rest : List Expr) : IsSize someEnv (.literal ['3', 'p', 't'] :: rest) 8 := by
  refine ⟨_, _, rfl, ?_⟩
  have h : someStod ['3', 'p', 't'] = some (3, 1) := by rw [someStod, if_pos rfl]
  simp [exprToNumber, Expr.isValue, Expr.getValue, someEnv, h, unitParse, uconvSize, unitFromPt, defaultLayer]
  norm_num

theorem some_color (rest : List Expr) : IsColor someEnv (.literal ['2'] :: rest) ⟨1, 1, 1, 1⟩ := by
  refine ⟨_, _, rfl, fun old => ?_⟩
  simp [exprToColor, Expr.getValue, beginsWith, isDigitText, cIsDigit, stolDigits, digitsVal, someEnv]

/-- `fill: 2` and `stroke: 3pt 2` are accepted. -/
example : readFill someEnv [.literal ['2']] ⟨[], [], [], []⟩ = (⟨[⟨1, 1, 1, 1⟩], [], [], []⟩, none) :=
  (C78_fill _ someEnv_palette _ _ _).2 ⟨_, .color (some_color []), rfl⟩

example : someEnv.stod "solid".toList = none ∧ someEnv.stod "dash".toList = none := by
  simp [someEnv, someStod]

example : readStroke someEnv [.literal ['3', 'p', 't'], .literal ['2']] ⟨[⟨0, 0, 0, 1⟩], [], [], []⟩ =
    (⟨[⟨0, 0, 0, 1⟩], [], [⟨⟨1, 1, 1, 1⟩, 8⟩], []⟩, none) :=
  (C78_stroke _ someEnv_palette (by simp [someEnv, someStod]) _ _ _).2 ⟨_, .short (some_3pt []) (some_color []), rfl⟩

/-- `stroke: dash(width 3pt)(pattern 3pt 3pt)` is accepted; so is the pattern of the plot elements. -/
example : ∃ s', readStroke someEnv [.list [.literal "dash".toList, .list [.literal "width".toList, .literal ['3', 'p', 't']],
    .list [.literal "pattern".toList, .literal ['3', 'p', 't'], .literal ['3', 'p', 't']]]] ⟨[], [], [], []⟩ = (s', none) ∧
    s'.strokeDash.map (·.pattern) = [[8, 8]] := by
  have hs : exprToNumber someStod (uconvSize defaultLayer) (.literal ['3', 'p', 't']) = .ok 8 := by
    obtain ⟨e, r, h, h'⟩ := some_3pt []
    cases h; exact h'
  have h8 : AreSizes someEnv [.literal ['3', 'p', 't'], .literal ['3', 'p', 't']] [8, 8] :=
    .cons hs (.cons hs .nil)
  refine ⟨_, (C78_stroke _ someEnv_palette (by simp [someEnv, someStod]) _ _ _).2
    ⟨⟨[], [], [], [⟨.black, 8, [8, 8], 0⟩]⟩, .dashWith (.inl rfl) ⟨?_, rfl, ?_, ?_, rfl⟩, rfl⟩, rfl⟩
  · intro c hc
    rcases mem2.1 hc with rfl | rfl
    · exact ⟨_, rfl, .inr (.inl ⟨by simp, _, some_3pt []⟩)⟩
    · exact ⟨_, rfl, .inr (.inr ⟨rfl, _, h8⟩)⟩
  · exact some_3pt []
  · exact h8

theorem some_length : IsLength someEnv 1 (.literal ['3', 'p', 't']) 8 := by
  have := IsLength.mk (E := someEnv) (mm := 1) (e := .literal ['3', 'p', 't']) (s := ['3', 'p', 't']) (v := 3) (pos := 1)
    (u := "pt") (f := someEnv.size.dpi / 72) (.inl rfl) (by simp [someEnv, someStod]) (by simp) rfl (by simp)
  have h8 : (3 : ℝ) * (someEnv.size.dpi / 72) = 8 := by simp [someEnv, defaultLayer]; norm_num
  rwa [h8] at this

example : readFillStyle someEnv [.list [.literal "hatch".toList, .list [.literal "width".toList, .literal ['3', 'p', 't']]]]
    ⟨none, none⟩ = (⟨some .black, some (-45, 0, 8, 8)⟩, none) := by
  refine (C79_fill_partial _ someEnv_palette _ _ _).2 (.hatch (cmds := [.list [.literal "width".toList, .literal ['3', 'p', 't']]])
    ⟨_, _, "hatch", by simp, .inl rfl, .inr rfl⟩ ?_ rfl rfl rfl ?_ ⟨_, _, rfl, some_length⟩)
  · intro c hc
    simp only [List.mem_singleton] at hc
    subst hc
    exact ⟨_, rfl, .inr (.inl ⟨by simp, _, _, _, rfl, some_length⟩)⟩
  · show (8 : ℝ) = pt someEnv 3
    simp [pt, someEnv, defaultLayer]; norm_num

example (k : StrokeState) : ∃ k', readStrokeStyle someEnv [.literal "dash".toList] k = (k', none) ∧
    k'.style = { k.style with dash := some (k.offset.value, [16 / 3, 16 / 3]) } := by
  refine (C79_stroke_partial _ _ _ _).2 (.dash (cmds := []) ⟨_, _, "dash", by simp, .inl rfl, .inl ⟨rfl, rfl⟩⟩
    (by simp) ?_ rfl)
  show [16 / 3, 16 / 3] = [pt someEnv 2, pt someEnv 2]
  simp [pt, someEnv, defaultLayer]; norm_num

example : Calls [.literal "none".toList] "none" := ⟨_, _, .inl rfl, .inl rfl⟩

example : someEnv.stod ['2', 'm', 'm'] = some (2, 1) ∧ ['2', 'm', 'm'].drop 1 = "mm".toList ∧ someEnv.size.dpi ≠ 25.4 := by
  refine ⟨by simp [someEnv, someStod], rfl, by simp [someEnv, defaultLayer]; norm_num⟩

/-- C78: in the draw module, `none` is no fill and no stroke, `solid` without a colour is no fill, and a refused setting
leaves the style as it was. -/
theorem C78_refused (E : ReadEnv) (hp : E.palette ≠ []) (hn : E.stod "solid".toList = none ∧ E.stod "dash".toList = none)
    (s : Compound) :
    (∀ s' rest, readFill E (.literal "none".toList :: rest) s ≠ (s', none)) ∧
    (∀ s' rest, readFill E (.literal "solid".toList :: rest) s ≠ (s', none)) ∧
    (∀ s', readStroke E [.literal "none".toList] s ≠ (s', none)) ∧
    (∀ args s' f, readFill E args s = (s', some f) → s' = s) ∧
    (∀ args s' f, readStroke E args s = (s', some f) → s' = s) := by
  have nc : ∀ w : String, w ∈ ["none", "solid"] → ∀ rest c, ¬ IsColor E (.literal w.toList :: rest) c := by
    intro w hw rest c
    refine word_not_color (w := w.toList) (isWord_iff.2 (.inl rfl)) ?_ ?_ c <;> rcases mem2.1 hw with rfl | rfl <;> decide
  refine ⟨?_, ?_, ?_, ?_, ?_⟩
  · intro s' rest h
    obtain ⟨f, hf, _⟩ := (C78_fill E hp _ _ _).1 h
    cases hf with
    | color hc => exact nc "none" (by simp) _ _ hc
    | hatch hk _ => rcases hk with h | h <;> simp at h
  · intro s' rest h
    obtain ⟨f, hf, _⟩ := (C78_fill E hp _ _ _).1 h
    cases hf with
    | color hc => exact nc "solid" (by simp) _ _ hc
    | hatch hk _ => rcases hk with h | h <;> simp at h
  · intro s' h
    obtain ⟨f, hf, _⟩ := (C78_stroke E hp hn _ _ _).1 h
    cases hf with
    | solid hk _ => rcases hk with h | h <;> simp at h
    | dash hk _ => rcases hk with h | h <;> simp at h
  · intro args s' f h
    have h1 : ∀ as, readFillSolid E as s = (s', some f) → s' = s := by
      intro as h; unfold readFillSolid at h; split at h <;> cases h; rfl
    have h2 : ∀ as, readFillHatch E as s = (s', some f) → s' = s := by
      intro as h; unfold readFillHatch at h; split at h <;> cases h; rfl
    unfold readFill at h
    repeat' split at h
    all_goals first | exact h1 _ h | exact h2 _ h
  · intro args s' f h
    have h1 : ∀ as, readStrokeSolid E as s = (s', some f) → s' = s := by
      intro as h; unfold readStrokeSolid at h; split at h <;> cases h; rfl
    have h2 : ∀ as, readStrokeDash E as s = (s', some f) → s' = s := by
      intro as h; unfold readStrokeDash at h; split at h <;> cases h; rfl
    have h3 : ∀ as, readStrokeShort E as s = (s', some f) → s' = s := by
      intro as h
      unfold readStrokeShort at h
      repeat' split at h
      all_goals cases h
      all_goals rfl
    unfold readStroke at h
    repeat' split at h
    all_goals first | exact h1 _ h | exact h2 _ h | exact h3 _ h

example : (C80_switch [.literal "on".toList] true).2 ⟨_, _, rfl, .inl rfl⟩ = rfl := rfl
example : IsPair someEnv (uconvSize defaultLayer) (uconvSize defaultLayer) [.literal ['3', 'p', 't'], .literal ['3', 'p', 't']]
    ⟨8, 8⟩ := by
  obtain ⟨e, r, h, h'⟩ := some_3pt []
  cases h
  exact ⟨_, _, rfl, h', h'⟩

end Clip
