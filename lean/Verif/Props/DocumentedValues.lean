import Verif.Props.Arguments
import Verif.Props.ScaleWords
set_option linter.unusedSimpArgs false
/-!
# C113: the values of the manual
-/
namespace Clip
open Options Arguments
noncomputable section
variable {φ : Type}

/-- A call: `(word args …)`. -/
abbrev DocCall (w : String) (args : List Expr) : List Expr := [.list (.literal w.toList :: args)]

/-- C113: the layouts of the manual (doc/plot/scale-layout.md) with numbers are accepted and mean what they say;
`(subdivide)` makes eight divisions. -/
theorem C113_layouts (stod : Str → Option (ℝ × Nat)) (a b c : Expr) (x y z : ℝ) (ha : NumberArg stod a x)
    (hb : NumberArg stod b y) (hc : NumberArg stod c z) :
    scaleConfigureLayout stod (DocCall "linear" [a]) = .ok (.linear x) ∧
    scaleConfigureLayout stod (DocCall "linear-align" [a]) = .ok (.align x) ∧
    scaleConfigureLayout stod (DocCall "linear-alignat" [a, b]) = .ok (.alignat x y) ∧
    scaleConfigureLayout stod (DocCall "linear-interval" [a, b, c]) = .ok (.interval x y z) ∧
    scaleConfigureLayout stod (DocCall "exponential" [a]) = .ok (.exponential x) ∧
    scaleConfigureLayout stod (DocCall "exponential-steps" [a, b]) = .ok (.expSteps x y) ∧
    scaleConfigureLayout stod (DocCall "subdivide" [a]) = .ok (.subdivide x) ∧
    scaleConfigureLayout stod (DocCall "subdivide" []) = .ok (.subdivide 8) := by
  have ha := (C107_number _ _ _).2 ha
  have hb := (C107_number _ _ _).2 hb
  have hc := (C107_number _ _ _).2 hc
  simp only [C92_placement]
  exact ⟨.linear (.inl rfl) ha, .align (.inl rfl) ha, .alignat (.inl rfl) ha hb, .interval (.inl rfl) ha hb hc,
    .exponential (.inl rfl) ha, .expSteps (.inl rfl) ha hb, .subdivide (.inl rfl) ha, .subdivideDefault (.inl rfl)⟩

/-- C113: the layouts for categories are accepted as words.  Violated by the code: as the manual writes them, in
parentheses, they are refused. -/
theorem C113_category_layouts (stod : Str → Option (ℝ × Nat)) :
    scaleConfigureLayout stod [.literal "categorical".toList] = .ok .categorical ∧
    scaleConfigureLayout stod [.literal "categorical-bounds".toList] = .ok .bounds ∧
    (∀ t, scaleConfigureLayout stod (DocCall "categorical" []) ≠ .ok t) ∧
    (∀ t, scaleConfigureLayout stod (DocCall "categorical-bounds" []) ≠ .ok t) := by
  refine ⟨(C92_placement _ _ _).2 (.categorical (.inl rfl)), (C92_placement _ _ _).2 (.bounds (.inl rfl)), ?_, ?_⟩
  · exact fun t => C92_placement_list_forms_refused stod _ "categorical" (by decide) (.inl rfl) [] [] t
  · exact fun t => C92_placement_list_forms_refused stod _ "categorical-bounds" (by decide) (.inl rfl) [] [] t

/-- C113: the number formats of the manual (doc/plot/number-format.md) are accepted and mean what they say; the number of
digits is 1 if it is not given. -/
theorem C113_formats (stod : Str → Option (ℝ × Nat)) (readFile : Str → Option Str) (a b : Expr) (x y : ℝ) (t : Str)
    (ha : NumberArg stod a x) (hb : NumberArg stod b y) :
    formatConfigure stod readFile (DocCall "fixed" []) = .ok (.fixed 1) ∧
    formatConfigure stod readFile (DocCall "fixed" [a]) = .ok (.fixed ⌊x⌋₊) ∧
    formatConfigure stod readFile (DocCall "scientific" []) = .ok (.scientific 1) ∧
    formatConfigure stod readFile (DocCall "scientific" [a]) = .ok (.scientific ⌊x⌋₊) ∧
    formatConfigure stod readFile (DocCall "datetime" []) = .ok (.datetime "%Y-%m-%d %H:%M:%S".toList) ∧
    formatConfigure stod readFile (DocCall "datetime" [.value t]) = .ok (.datetime t) ∧
    formatConfigure stod readFile (DocCall "base" [a, b]) = .ok (.base ⌊x⌋₊ ⌊y⌋₊) ∧
    formatConfigure stod readFile (DocCall "integer" []) = .ok .integer := by
  have count : ∀ {e v}, NumberArg stod e v → Count stod e ⌊v⌋₊ := fun ⟨s, hs, hn⟩ => ⟨s, _, .inl hs, hn, rfl⟩
  have call : ∀ (w : String) (es : List Expr), Call (DocCall w es) w es := fun w es => ⟨_, [], rfl, .inl rfl⟩
  simp only [C107_format]
  exact ⟨.fixedNone (call _ _), .fixed (call _ _) (count ha), .scientificNone (call _ _), .scientific (call _ _) (count ha),
    .datetimeNone (call _ _), .datetime (call _ _) (.inl (.inr rfl)), .basePrecision (call _ _) (count ha) (count hb),
    .integer (call _ _)⟩

/-- C113: the scale types of the manual (doc/plot/scale-types.md) as words, a logarithmic scale with its base, and the
list of categories are accepted and mean what they say; the base is 10 if it is not given. -/
theorem C113_scale_types (P : PlotEnv φ) (s : Scale) (a : Expr) (b : ℝ) (ha : NumberArg P.stod a b) (cats : List Str) :
    scaleConfigureKind P.stod P.readFile [.literal "linear".toList] s = ({ s with kind := .linear }, none) ∧
    (∀ w ∈ ["log", "logarithmic"],
      scaleConfigureKind P.stod P.readFile [.literal w.toList] s = ({ s with kind := .logarithmic }, none) ∧
      scaleConfigureKind P.stod P.readFile (DocCall w [a]) s = ({ s with kind := .logarithmic, logBase := b }, none)) ∧
    ({} : Scale).logBase = 10 ∧
    (∀ w ∈ ["invert", "inverted"],
      scaleConfigureKind P.stod P.readFile [.literal w.toList] s = ({ s with inverted := true }, none)) ∧
    (∃ s', scaleConfigureKind P.stod P.readFile (DocCall "categorical" (cats.map .value)) s = (s', none) ∧
      s'.kind = .categorical ∧ s'.categories = cats) := by
  have ha := (C107_number _ _ _).2 ha
  simp only [C92_scale]
  refine ⟨.cons (.linear (.inl rfl)) (.nil _), ?_, trivial, ?_, ?_⟩
  · intro w hw
    simp only [List.mem_cons, List.mem_nil_iff, or_false] at hw
    rcases hw with rfl | rfl
    · exact ⟨.cons (.log (.inl (.inl rfl))) (.nil _), .cons (.logBase (.inl (.inl rfl)) ha) (.nil _)⟩
    · exact ⟨.cons (.log (.inr (.inl rfl))) (.nil _), .cons (.logBase (.inr (.inl rfl)) ha) (.nil _)⟩
  · intro w hw
    simp only [List.mem_cons, List.mem_nil_iff, or_false] at hw
    rcases hw with rfl | rfl
    · exact .cons (.invert (.inl (.inl rfl))) (.nil _)
    · exact .cons (.invert (.inr (.inl rfl))) (.nil _)
  · refine ⟨_, .cons (.categories (.inl rfl) (.inl ⟨?_, ?_⟩)) (.nil _), rfl, rfl⟩
    · cases cats <;> rfl
    · clear ha
      induction cats with
      | nil => rfl
      | cons c cs ih =>
        rw [List.map_cons, exprToStrings, ih]
        rfl

/-- C113, violated by the code: written as in the manual, in parentheses, scale types without an argument are refused. -/
theorem C113_scale_types_refused (P : PlotEnv φ) (s s' : Scale) (w : String)
    (hw : w ∈ ["linear", "log", "logarithmic", "invert", "inverted"]) :
    scaleConfigureKind P.stod P.readFile (DocCall w []) s ≠ (s', none) := by
  intro h
  have h := (C92_scale _ _ _ _).1 h
  cases h with
  | cons h1 h2 =>
    cases h1 with
    | linear h => rcases h with h | h <;> cases h
    | log h => rcases h with (h | h) | (h | h) <;> cases h
    | invert h => rcases h with (h | h) | (h | h) <;> cases h
    | categorical h => rcases h with h | h <;> cases h
    | categories hk _ =>
      rcases hk with hk | hk
      · have := String.toList_inj.1 (Expr.literal.inj hk)
        subst this
        revert hw; decide
      · cases hk

/-- C113: a colour map with positions and colours in turn is accepted. -/
theorem C113_color_map (E : ReadEnv) (w : String) (k : MapKind) (hw : (w, k) ∈ [("gradient", MapKind.gradient), ("steps", .steps)])
    (stops : List (Expr × Expr)) (vals : List (ℝ × Color))
    (h : List.Forall₂ (fun p s => NumberArg E.stod p.1 s.1 ∧ exprToColor E.stod E.palette .black p.2 = .ok s.2) stops vals) :
    readColorMap E (DocCall w (stops.flatMap fun p => [p.1, p.2])) = .ok (k, vals) :=
  (C107_color_map E _ _ _).2 ⟨w, stops, hw, ⟨_, [], rfl, .inl rfl⟩, h⟩

/-- C113, violated by the code: written as in the manual (doc/plot/color-maps.md), with a pair of parentheses for each step,
`(gradient (0 #aaa) (1.0 #000))`, a colour map is refused. -/
theorem C113_color_map_refused (E : ReadEnv) (w : String) (stops : List (Expr × Expr)) (hne : stops ≠ [])
    (m : MapKind × List (ℝ × Color)) :
    readColorMap E (DocCall w (stops.map fun p => .list [p.1, p.2])) ≠ .ok m := by
  intro h
  obtain ⟨k, vals⟩ := m
  obtain ⟨w', ps, -, ⟨e, rest, hc, -⟩, hf⟩ := (C107_color_map E _ _ _).1 h
  simp only [List.cons.injEq, Expr.list.injEq] at hc
  obtain ⟨⟨-, hc⟩, -⟩ := hc
  cases stops with
  | nil => exact hne rfl
  | cons p stops =>
    cases hf with
    | nil => simp at hc
    | cons hp _ =>
      simp only [List.map_cons, List.flatMap_cons, List.cons_append, List.cons.injEq] at hc
      obtain ⟨⟨t, ht, -⟩, -⟩ := hp
      rw [← hc.1] at ht
      rcases ht with ht | ht <;> cases ht

/-- C113: the lengths of the manual (doc/typographic.md) with the units `px`, `mm`, `pt` and `em` are accepted as sizes.
Violated by the code: a percentage is refused. -/
theorem C113_units (stod : Str → Option (ℝ × Nat)) (S : LayerSize) (e : Expr) (t : Str) (v : ℝ) (u : String) (he : Wrote e t)
    (ht : NumberThen stod t v u.toList) :
    (u ∈ ["px", "mm", "pt", "em"] → ∃ f, (u, f) ∈ sizeUnits S ∧ exprToNumber stod (uconvSize S) e = .ok (v * f)) ∧
    (u = "%" → ∀ x, exprToNumber stod (uconvSize S) e ≠ .ok x) := by
  constructor
  · intro hu
    simp only [C107_size]
    have key : ∀ f, (u, f) ∈ sizeUnits S → Length stod (sizeUnits S) e (v * f) :=
      fun f hf => ⟨t, v, _, he, ht, .inr ⟨u, f, hf, rfl, rfl⟩⟩
    simp only [List.mem_cons, List.mem_nil_iff, or_false] at hu
    rcases hu with rfl | rfl | rfl | rfl
    · exact ⟨_, by simp [sizeUnits], key 1 (by simp [sizeUnits])⟩
    · exact ⟨S.dpi / 25.4, by simp [sizeUnits], key _ (by simp [sizeUnits])⟩
    · exact ⟨S.dpi / 72, by simp [sizeUnits], key _ (by simp [sizeUnits])⟩
    · exact ⟨Arguments.extent S.dpi S.fontSize, by simp [sizeUnits], key _ (by simp [sizeUnits])⟩
  · rintro rfl x hx
    obtain ⟨t', v', u', he', ⟨n, -, hn, hu⟩, h⟩ := (C107_size _ _ _ _).1 hx
    obtain ⟨n', -, hn', hu'⟩ := ht
    have : t' = t := by
      rcases he with rfl | rfl <;> rcases he' with h | h <;> cases h <;> rfl
    subst this
    rw [hn'] at hn
    cases hn
    rw [← hu'] at hu
    rcases h with ⟨h, -⟩ | ⟨w, f, hw, h, -⟩
    · rw [h] at hu; exact absurd hu (by decide)
    · rw [h] at hu
      have := String.toList_inj.1 hu
      subst this
      simp [sizeUnits] at hw

/-- `50%` is such a length, and `12` a number. -/
example : NumberThen (fun t => if t = "50%".toList then some (50, 2) else none) "50%".toList 50 "%".toList ∧
    NumberArg (fun _ => some (12, 2)) (.literal "12".toList) 12 :=
  ⟨⟨2, by decide, by simp, by decide⟩, _, .inl rfl, 2, rfl⟩

end
end Clip
