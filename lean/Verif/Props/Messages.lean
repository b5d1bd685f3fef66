import Verif.Model.Messages
import Verif.Spec.Messages
import Verif.Props.StyleOld
import Verif.Props.StringUtil
import Verif.Props.Units
import Verif.Model.PlotConf
import Verif.Model.Format
/-! # Property C120: the error messages name what may be used instead -/
set_option linter.unusedSimpArgs false
namespace Clip
open Commands Settings Drawing Messages

namespace MessageLemmas

theorem quoted_join : ∀ (w : Str) (ws : List Str), Quoted (joinStr ((w :: ws).map quoteValue) ", ".toList) (w :: ws) := by
  intro w ws
  rw [joinStr_eq]
  induction ws generalizing w with
  | nil => simpa [quoteValue] using Quoted.one w
  | cons v vs ih =>
    have := Quoted.more w (ih v)
    have e : (", ".toList).intercalate ((w :: v :: vs).map quoteValue) =
        '\'' :: w ++ ['\'', ',', ' '] ++ (", ".toList).intercalate ((v :: vs).map quoteValue) := by
      simp [quoteValue, List.intercalate, List.intersperse]
    rw [e]; exact this

theorem splice (a v b c t : Str) (q : Char) :
    (a ++ [q]) ++ v ++ (q :: (b ++ c)) ++ t = a ++ q :: v ++ q :: b ++ c ++ t := by
  simp only [List.append_assoc, List.cons_append, List.nil_append]

theorem t1 : "invalid value: '".toList = "invalid value: ".toList ++ ['\''] := by decide +kernel
theorem t2 : "'; expected one of: ".toList = '\'' :: ("; ".toList ++ "expected one of: ".toList) := by decide +kernel
theorem t3 : "invalid argument: '".toList = "invalid argument: ".toList ++ ['\''] := by decide +kernel
theorem t4 : "'; expected one of: \n".toList = '\'' :: ("; ".toList ++ "expected one of: \n".toList) := by decide +kernel
theorem t5 : "invalid value '".toList = "invalid value ".toList ++ ['\''] := by decide +kernel
theorem t6 : "', expected one of: \n".toList = '\'' :: (", ".toList ++ "expected one of: \n".toList) := by decide +kernel
theorem t7 : "invalid unit: '".toList = "invalid unit: ".toList ++ ['\''] := by decide +kernel
theorem t8 : "', expected one of 'mm', 'px', 'pt', 'em', 'rem', 'rel' or '%'".toList = '\'' :: (", ".toList ++
    ("expected one of ".toList ++ ('\'' :: 'm' :: 'm' :: '\'' :: ',' :: ' ' :: '\'' :: 'p' :: 'x' :: '\'' :: ',' :: ' ' ::
    '\'' :: 'p' :: 't' :: '\'' :: ',' :: ' ' :: '\'' :: 'e' :: 'm' :: '\'' :: ',' :: ' ' :: '\'' :: 'r' :: 'e' :: 'm' :: '\'' :: ',' :: ' ' ::
    '\'' :: 'r' :: 'e' :: 'l' :: '\'' :: (" or '".toList ++ ['%', '\''])))) := by decide +kernel

theorem t9 : "invalid value to <color-map>; got '".toList = "invalid value to <color-map>; got ".toList ++ ['\''] := by
  decide +kernel
theorem t10 : "', but expected one of: \n".toList = '\'' :: (", but ".toList ++ "expected one of: \n".toList) := by
  decide +kernel
theorem t11 : "invalid value to <measure-map>; got '".toList = "invalid value to <measure-map>; got ".toList ++ ['\''] := by
  decide +kernel
theorem t12 : "invalid <stroke-style>; expected one of (none, solid), but got: '".toList = "invalid <stroke-style>; ".toList ++
    ("expected one of (".toList ++ ('n' :: 'o' :: 'n' :: 'e' :: (", ".toList ++ ('s' :: 'o' :: 'l' :: 'i' :: 'd' :: ')' ::
    (", but got: ".toList ++ ['\'']))))) := by decide +kernel

theorem advises_invalid (value w : Str) (ws : List Str) : Advises value (errInvalidValue value (w :: ws)) (w :: ws) := by
  have := Advises.quoted (value := value) "invalid value: ".toList "; ".toList (quoted_join w ws)
  have e : errInvalidValue value (w :: ws) = "invalid value: ".toList ++ '\'' :: value ++ '\'' :: "; ".toList ++
      "expected one of: ".toList ++ joinStr ((w :: ws).map quoteValue) ", ".toList := by
    unfold errInvalidValue; rw [t1, t2, splice]
  rw [e]; exact this

theorem lines_items : ∀ ws : List Str, Lines (itemLines ws) ws := by
  intro ws
  induction ws with
  | nil => exact .nil
  | cons w ws ih =>
    have := Lines.cons w ih
    simpa [itemLines] using this

theorem advises_lines (value a b : Str) (ws : List Str) :
    Advises value (a ++ '\'' :: value ++ '\'' :: b ++ "expected one of: \n".toList ++ itemLines ws) ws :=
  .lines a b (lines_items ws)

theorem exprIsWord_eq (args : List Expr) (w : Str) : exprIsWord args w = isWord args w := by
  cases args <;> rfl

theorem isListHead_eq (args : List Expr) (w : Str) : exprIsListHead args w = (isCall args w).isSome := by
  match args with
  | [] => rfl
  | .literal _ :: _ => rfl
  | .value _ :: _ => rfl
  | .list [] :: _ => rfl
  | .list (e :: _) :: _ =>
    show (e.isValue && e.getValue == w) = (if (e.isValue && e.getValue == w) = true then some _ else none).isSome
    cases e.isValue && e.getValue == w <;> rfl

end MessageLemmas
open MessageLemmas

/-- C120: the kinds of scales. -/
theorem C120_kinds (stod : Str → Option (ℝ × Nat)) (readFile : Str → Option Str) (value : Str) (s : Scale) :
    ∃ ws, Advises value (kindMessage value) ws ∧
      (∀ w : String, w.toList ∈ ws → ∃ e s', Calls [e] w ∧ scaleConfigureKind stod readFile [e] s = (s', none)) ∧
      (∀ (w : String) e, Calls [e] w → w.toList ∉ ws →
        scaleConfigureKind stod readFile [e] s = (s, some (.error .invalidValue))) := by
  refine ⟨_, advises_invalid value _ _, ?_, ?_⟩
  · intro w hw
    refine ⟨.literal w.toList, ?_⟩
    have hc : Calls [.literal w.toList] w := ⟨_, [], .inl rfl, .inl rfl⟩
    simp only [List.mem_cons, List.not_mem_nil, or_false] at hw
    rcases hw with hw | hw | hw | hw | hw | hw <;> rw [String.toList_inj] at hw <;> subst hw <;>
      exact ⟨_, hc, by rfl⟩
  · intro w e hc hw
    have h := headWord_calls hc
    simp only [List.mem_cons, List.not_mem_nil, or_false, not_or] at hw
    obtain ⟨h1, h2, h3, h4, h5, h6⟩ := hw
    simp only [scaleConfigureKind, no_word h h1, no_word h h2, no_word h h3, no_word h h4, no_word h h5, no_word h h6,
      no_call h h2, no_call h h3, no_call h h6, Bool.false_or, Bool.false_eq_true, if_false, Option.orElse]

/-- C120: the placements of ticks and labels. -/
theorem C120_ticks (stod : Str → Option (ℝ × Nat)) (t : Str) (x : ℝ) (n : Nat) (hn : stod t = some (x, n)) (value : Str) :
    ∃ ws, Advises value (ticksMessage value) ws ∧
      (∀ w : String, w.toList ∈ ws → ∃ e p, Calls [e] w ∧ scaleConfigureLayout stod [e] = .ok p) ∧
      (∀ (w : String) e, Calls [e] w → w.toList ∉ ws →
        scaleConfigureLayout stod [e] = .error (.error .invalidValue)) := by
  refine ⟨["linear".toList, "linear-align".toList, "linear-alignat".toList, "linear-interval".toList,
      "exponential".toList, "exponential-steps".toList, "subdivide".toList, "categorical".toList,
      "categorical-bounds".toList, "none".toList], ?_, ?_, ?_⟩
  · have := advises_lines value "invalid argument: ".toList "; ".toList ["linear".toList, "linear-align".toList,
      "linear-alignat".toList, "linear-interval".toList, "exponential".toList, "exponential-steps".toList,
      "subdivide".toList, "categorical".toList, "categorical-bounds".toList, "none".toList]
    have e : ticksMessage value = "invalid argument: ".toList ++ '\'' :: value ++ '\'' :: "; ".toList ++
        "expected one of: \n".toList ++ itemLines ["linear".toList, "linear-align".toList,
        "linear-alignat".toList, "linear-interval".toList, "exponential".toList, "exponential-steps".toList,
        "subdivide".toList, "categorical".toList, "categorical-bounds".toList, "none".toList] := by
      unfold ticksMessage; rw [t3, t4, splice]
    rw [e]; exact this
  · intro w hw
    have hc : ∀ as : List Expr, Calls [.list (.literal w.toList :: as)] w := fun as => ⟨_, [], .inl rfl, .inr ⟨as, rfl⟩⟩
    have hl : Calls [.literal w.toList] w := ⟨_, [], .inl rfl, .inl rfl⟩
    have hx : exprToFloat stod (.literal t) = .ok x := by simp [exprToFloat, Expr.getValue, Expr.isValue, hn]
    simp only [List.mem_cons, List.not_mem_nil, or_false] at hw
    rcases hw with hw | hw | hw | hw | hw | hw | hw | hw | hw | hw <;> rw [String.toList_inj] at hw <;> subst hw
    · exact ⟨_, _, hc [.literal t], by simp [scaleConfigureLayout, isCall, tickArgs, exprToFloats, hx, Expr.isValue, Expr.getValue]; rfl⟩
    · exact ⟨_, _, hc [.literal t], by simp [scaleConfigureLayout, isCall, tickArgs, exprToFloats, hx, Expr.isValue, Expr.getValue]; rfl⟩
    · exact ⟨_, _, hc [.literal t, .literal t], by simp [scaleConfigureLayout, isCall, tickArgs, exprToFloats, hx, Expr.isValue, Expr.getValue]; rfl⟩
    · exact ⟨_, _, hc [.literal t, .literal t, .literal t], by simp [scaleConfigureLayout, isCall, tickArgs, exprToFloats, hx, Expr.isValue, Expr.getValue]; rfl⟩
    · exact ⟨_, _, hc [.literal t], by simp [scaleConfigureLayout, isCall, tickArgs, exprToFloats, hx, Expr.isValue, Expr.getValue]; rfl⟩
    · exact ⟨_, _, hc [.literal t, .literal t], by simp [scaleConfigureLayout, isCall, tickArgs, exprToFloats, hx, Expr.isValue, Expr.getValue]; rfl⟩
    · exact ⟨_, _, hc [], by simp [scaleConfigureLayout, isCall, tickSubdivide, Expr.isValue, Expr.getValue]; rfl⟩
    · exact ⟨_, _, hl, by rfl⟩
    · exact ⟨_, _, hl, by rfl⟩
    · exact ⟨_, _, hl, by rfl⟩
  · intro w e hc hw
    have h := headWord_calls hc
    simp only [List.mem_cons, List.not_mem_nil, or_false, not_or] at hw
    obtain ⟨h1, h2, h3, h4, h5, h6, h7, h8, h9, h10⟩ := hw
    simp only [scaleConfigureLayout, no_call h h1, no_call h h2, no_call h h3, no_call h h4, no_call h h5, no_call h h6,
      no_call h h7, no_word h h8, no_word h h9, no_word h h10, Bool.false_eq_true, if_false]

/-- C120: the formats of labels. -/
theorem C120_formats (stod : Str → Option (ℝ × Nat)) (readFile : Str → Option Str) (t : Str) (x : ℝ) (n : Nat)
    (hn : stod t = some (x, n)) (value : Str) :
    ∃ ws, Advises value (formatMessage value) ws ∧
      (∀ w : String, w.toList ∈ ws → ∃ e p, Calls [e] w ∧ formatConfigure stod readFile [e] = .ok p) ∧
      (∀ (w : String) e, Calls [e] w → w.toList ∉ ws → formatConfigure stod readFile [e] = .error .badName) := by
  refine ⟨["fixed".toList, "scientific".toList, "datetime".toList, "base".toList, "integer".toList, "custom".toList],
    ?_, ?_, ?_⟩
  · have := advises_lines value "invalid value ".toList ", ".toList
      ["fixed".toList, "scientific".toList, "datetime".toList, "base".toList, "integer".toList, "custom".toList]
    have e : formatMessage value = "invalid value ".toList ++ '\'' :: value ++ '\'' :: ", ".toList ++
        "expected one of: \n".toList ++ itemLines
      ["fixed".toList, "scientific".toList, "datetime".toList, "base".toList, "integer".toList, "custom".toList] := by
      unfold formatMessage; rw [t5, t6, splice]
    rw [e]; exact this
  · intro w hw
    have hc : ∀ as : List Expr, Calls [.list (.literal w.toList :: as)] w := fun as => ⟨_, [], .inl rfl, .inr ⟨as, rfl⟩⟩
    have hl : Calls [.literal w.toList] w := ⟨_, [], .inl rfl, .inl rfl⟩
    simp only [List.mem_cons, List.not_mem_nil, or_false] at hw
    rcases hw with hw | hw | hw | hw | hw | hw <;> rw [String.toList_inj] at hw <;> subst hw
    · exact ⟨_, _, hl, by rfl⟩
    · exact ⟨_, _, hl, by rfl⟩
    · exact ⟨_, _, hl, by rfl⟩
    · exact ⟨_, .base (truncZ x).toNat 1, hc [.literal t], by
        simp [formatConfigure, exprIsWord, exprIsListHead, exprListTail, configureBase, precisionArg, hn, Expr.isValue, Expr.getValue]⟩
    · exact ⟨_, _, hl, by rfl⟩
    · exact ⟨_, .custom [], hc [], by rfl⟩
  · intro w e hc hw
    have h := headWord_calls hc
    simp only [List.mem_cons, List.not_mem_nil, or_false, not_or] at hw
    obtain ⟨h1, h2, h3, h4, h5, h6⟩ := hw
    simp only [formatConfigure, exprIsWord_eq, isListHead_eq, no_word h h1, no_word h h2, no_word h h3, no_word h h4,
      no_word h h5, no_call h h1, no_call h h2, no_call h h3, no_call h h4, no_call h h5, no_call h h6,
      Option.isSome_none, Bool.false_eq_true, if_false]

theorem sizes_advise (value : Str) : Advises value (sizeMessage value) (paperSizes.map (fun p => p.1)) := by
  unfold sizeMessage
  have : ∃ w ws, paperSizes.map (fun p => p.1) = w :: ws := ⟨_, _, by rw [paperSizes, List.map_cons]⟩
  obtain ⟨w, ws, h⟩ := this
  rw [h]
  exact advises_invalid value w ws

/-- C120: the sizes of a page. -/
theorem C120_sizes (l : LayerSize) (value : Str) :
    ∃ ws, Advises value (sizeMessage value) ws ∧
      (∀ w ∈ ws, ∃ l', layerResizeNamed l w = .ok l') ∧
      (∀ w, w ∉ ws → layerResizeNamed l w = .error (.invalidSize w)) := by
  refine ⟨paperSizes.map (fun p => p.1), sizes_advise value, ?_, ?_⟩
  · intro w hw
    unfold layerResizeNamed
    cases h : paperSizes.lookup w with
    | some p => exact ⟨_, rfl⟩
    | none =>
      rw [List.lookup_eq_none_iff] at h
      obtain ⟨p, hp, rfl⟩ := List.mem_map.1 hw
      exact absurd (h p hp) (by simp)
  · intro w hw
    unfold layerResizeNamed
    cases h : paperSizes.lookup w with
    | none => rfl
    | some p =>
      have : paperSizes.lookup w ≠ none := by rw [h]; simp
      rw [Ne, List.lookup_eq_none_iff] at this
      push Not at this
      obtain ⟨q, hq, he⟩ := this
      exact absurd (List.mem_map.2 ⟨q, hq, (by simpa using he : w = q.1).symm⟩) hw

/-- C120: the units of a length (no unit at all is fine, too). -/
theorem C120_units (stod : Str → Option (ℝ × Nat)) (num u : Str) (v : ℝ) (h : NumberWithUnit stod num u v) (hu : u ≠ []) :
    ∃ ws, Advises u (unitMessage u) ws ∧
      (u ∈ ws → ∃ m, parseMeasure stod (num ++ u) = .ok m) ∧
      (u ∉ ws → parseMeasure stod (num ++ u) = .error (.invalidUnit u)) := by
  refine ⟨[['m', 'm'], ['p', 'x'], ['p', 't'], ['e', 'm'], ['r', 'e', 'm'], ['r', 'e', 'l']] ++ [['%']], ?_, ?_, ?_⟩
  · have := Advises.or (value := u) "invalid unit: ".toList ", ".toList ['%'] (Quoted.more ['m', 'm'] (.more ['p', 'x']
      (.more ['p', 't'] (.more ['e', 'm'] (.more ['r', 'e', 'm'] (.one ['r', 'e', 'l']))))))
    have e : unitMessage u = "invalid unit: ".toList ++ '\'' :: u ++ '\'' :: ", ".toList ++ "expected one of ".toList ++
        ('\'' :: ['m', 'm'] ++ ['\'', ',', ' '] ++ ('\'' :: ['p', 'x'] ++ ['\'', ',', ' '] ++ ('\'' :: ['p', 't'] ++ ['\'', ',', ' '] ++
        ('\'' :: ['e', 'm'] ++ ['\'', ',', ' '] ++ ('\'' :: ['r', 'e', 'm'] ++ ['\'', ',', ' '] ++ ('\'' :: ['r', 'e', 'l'] ++ ['\'']))))))
        ++ " or '".toList ++ ['%'] ++ ['\''] := by
      unfold unitMessage; rw [t7, t8]
      generalize "invalid unit: ".toList = a, ", ".toList = b, "expected one of ".toList = c, " or '".toList = d
      simp only [List.append_assoc, List.cons_append, List.nil_append]
    rw [e]; exact this
  · intro hw
    obtain ⟨_, h1, h2, h3, h4, h5, h6, h7, _⟩ := C26_parse stod num u v h
    simp only [List.cons_append, List.nil_append, List.mem_cons, List.not_mem_nil, or_false] at hw
    rcases hw with hw | hw | hw | hw | hw | hw | hw
    · exact ⟨_, h1 hw⟩
    · exact ⟨_, h2 hw⟩
    · exact ⟨_, h3 hw⟩
    · exact ⟨_, h4 hw⟩
    · exact ⟨_, h5 hw⟩
    · exact ⟨_, h7 hw⟩
    · exact ⟨_, h6 hw⟩
  · intro hw
    refine (C26_parse stod num u v h).2.2.2.2.2.2.2.2 ?_
    simp only [List.cons_append, List.nil_append, List.mem_cons, List.not_mem_nil, or_false, not_or] at hw ⊢
    tauto

/-- C120: the maps from values to colours. -/
theorem C120_color_maps (stod : Str → Option (ℝ × Nat)) (palette : List Color) (value : Str) :
    ∃ ws, Advises value (colorMapMessage value) ws ∧
      (∀ w : String, w.toList ∈ ws → ∃ e m, Calls [e] w ∧ colorMapRead stod palette [e] = .ok m) ∧
      (∀ (w : String) e, Calls [e] w → w.toList ∉ ws → colorMapRead stod palette [e] = .error .invalidMap) := by
  refine ⟨["steps".toList, "gradient".toList], ?_, ?_, ?_⟩
  · have := advises_lines value "invalid value to <color-map>; got ".toList ", but ".toList ["steps".toList, "gradient".toList]
    have e : colorMapMessage value = "invalid value to <color-map>; got ".toList ++ '\'' :: value ++ '\'' :: ", but ".toList ++
        "expected one of: \n".toList ++ itemLines ["steps".toList, "gradient".toList] := by
      unfold colorMapMessage; rw [t9, t10, splice]
    rw [e]; exact this
  · intro w hw
    have hc : Calls [.list [.literal w.toList]] w := ⟨_, [], .inl rfl, .inr ⟨[], rfl⟩⟩
    simp only [List.mem_cons, List.not_mem_nil, or_false] at hw
    rcases hw with hw | hw <;> rw [String.toList_inj] at hw <;> subst hw <;> exact ⟨_, _, hc, by rfl⟩
  · intro w e hc hw
    have h := headWord_calls hc
    simp only [List.mem_cons, List.not_mem_nil, or_false, not_or] at hw
    have h1 := no_call h hw.1
    have h2 := no_call h hw.2
    match e with
    | .literal _ => rfl
    | .value _ => rfl
    | .list [] => rfl
    | .list (k :: es) =>
      have a : (k.isValue && k.getValue == "steps".toList) = false := by
        cases hb : k.isValue && k.getValue == "steps".toList with
        | false => rfl
        | true => rw [isCall, if_pos hb] at h1; cases h1
      have b : (k.isValue && k.getValue == "gradient".toList) = false := by
        cases hb : k.isValue && k.getValue == "gradient".toList with
        | false => rfl
        | true => rw [isCall, if_pos hb] at h2; cases h2
      simp only [colorMapRead, a, b, Bool.false_eq_true, if_false]

/-- C120: the maps from values to sizes. -/
theorem C120_size_maps (E : ReadEnv) (t : Str) (m : Measure) (ht : parseMeasure E.stod t = .ok m) (value : Str) :
    ∃ ws, Advises value (sizeMapMessage value) ws ∧
      (∀ w : String, w.toList ∈ ws → ∃ e p, Calls [e] w ∧ readSizeMap E [e] = .ok p) ∧
      (∀ (w : String) e, Calls [e] w → w.toList ∉ ws → readSizeMap E [e] = .error (.error .invalidValue)) := by
  refine ⟨["linear".toList], ?_, ?_, ?_⟩
  · have := advises_lines value "invalid value to <measure-map>; got ".toList ", but ".toList ["linear".toList]
    have e : sizeMapMessage value = "invalid value to <measure-map>; got ".toList ++ '\'' :: value ++ '\'' :: ", but ".toList ++
        "expected one of: \n".toList ++ itemLines ["linear".toList] := by
      unfold sizeMapMessage; rw [t11, t10, splice]
    rw [e]; exact this
  · intro w hw
    rw [List.mem_singleton, String.toList_inj] at hw
    subst hw
    let q := measureNormalize ⟨E.size.dpi, ⟨.unit, layerSize E.size.fontSize E.size.dpi⟩, ⟨.unit, 0⟩⟩ m
    refine ⟨.list [.literal "linear".toList, .literal t, .literal t], (q, q), ⟨_, [], .inl rfl, .inr ⟨_, rfl⟩⟩, ?_⟩
    have h1 : isCall [.list [.literal "linear".toList, .literal t, .literal t]] "linear".toList =
        some [.literal t, .literal t] := rfl
    have h2 : readMeasureN E [.literal t] = .ok (measureNormalize
        ⟨E.size.dpi, ⟨.unit, layerSize E.size.fontSize E.size.dpi⟩, ⟨.unit, 0⟩⟩ m) := by
      simp only [readMeasureN, Expr.isValue, Expr.getValue, if_true, ht]
    simp only [readSizeMap, h1, h2, q]
  · intro w e hc hw
    have h := headWord_calls hc
    rw [List.mem_singleton] at hw
    simp only [readSizeMap, no_call h hw]

/-- C120: the file formats a `lines` element reads: with a file and a format, the element is refused for its format
exactly if the format is not one of those the message names. -/
theorem C120_line_files {ν : Type} (readFile : Str → Option Str) (geojson : LineReader ν) (path f : Str) (hp : path ≠ [])
    (hf : f ≠ []) (hg : ∀ p e, (geojson p).2 ≠ .error (.invalidFormat e)) (x y : DataBuffer ν) (groups : List Nat) :
    ∃ ws, Advises f (dataMessage f) ws ∧
      ((dataLoadPolylines2 readFile geojson path f none none x y groups).2 = .error (.invalidFormat f) ↔ f ∉ ws) := by
  refine ⟨["csv".toList, "geojson".toList], advises_invalid f _ _, ?_⟩
  have hd : detectFormat path f = f := by
    unfold detectFormat; rw [if_neg (by simpa using hf)]
  have hp' : path.isEmpty = false := by simpa using hp
  have hf' : f.isEmpty = false := by simpa using hf
  simp only [List.mem_cons, List.not_mem_nil, or_false, not_or]
  by_cases h1 : f = "csv".toList
  · constructor
    · intro h
      exfalso
      simp only [dataLoadPolylines2, loadInlineRef, hd, hp', hf', Bool.false_eq_true, if_false, if_pos h1] at h
      revert h
      repeat' split
      all_goals simp
    · intro h; exact absurd h1 h.1
  · by_cases h2 : f = "geojson".toList
    · constructor
      · intro h
        exfalso
        simp only [dataLoadPolylines2, loadInlineRef, hd, hp', hf', Bool.false_eq_true, if_false, if_neg h1, if_pos h2] at h
        exact hg _ _ h
      · intro h; exact absurd h2 h.2
    · refine ⟨fun _ => ⟨h1, h2⟩, fun _ => ?_⟩
      simp only [dataLoadPolylines2, loadInlineRef, hd, hp', hf', Bool.false_eq_true, if_false, if_neg h1, if_neg h2]

/-- C120, violated by the code: a `points` element with a CSV file is refused, with a message that names CSV among the
formats one may use. -/
theorem C120_point_files_fails {ν : Type} (readFile : Str → Option Str)
    (geojson : Str → List (ν × ν) × Outcome DataErr Unit) (path : Str) (hp : path ≠ []) (x y : DataBuffer ν) :
    ∃ ws, Advises "csv".toList (dataMessage "csv".toList) ws ∧ "csv".toList ∈ ws ∧
      (dataLoadPoints2 readFile geojson path "csv".toList none none x y).2 = .error (.invalidFormat "csv".toList) := by
  refine ⟨["csv".toList, "geojson".toList], advises_invalid _ _ _, by simp, ?_⟩
  have hd : detectFormat path "csv".toList = "csv".toList := by
    unfold detectFormat; rw [if_neg (by decide)]
  have hp' : path.isEmpty = false := by simpa using hp
  have h1 : ("csv".toList).isEmpty = false := by decide
  have h2 : "csv".toList ≠ "geojson".toList := by decide
  simp only [dataLoadPoints2, loadInlineRef, hd, hp', h1, Bool.false_eq_true, if_false, if_neg h2]

/-- C120: the styles of lines the message names are accepted. -/
theorem C120_stroke_partial (E : ReadEnv) (k : StrokeState) (value : Str) :
    ∃ ws, Advises value (strokeMessage value) ws ∧
      (∀ w : String, w.toList ∈ ws → ∃ e k', Calls [e] w ∧ readStrokeStyle E [e] k = (k', none)) ∧
      (∀ (w : String) e, Calls [e] w → w.toList ∉ "dash".toList :: "dashed".toList :: ws →
        readStrokeStyle E [e] k = (k, some (.error .invalidStyle))) := by
  refine ⟨[['n', 'o', 'n', 'e'], ['s', 'o', 'l', 'i', 'd']], ?_, ?_, ?_⟩
  · have := Advises.parens (value := value) "invalid <stroke-style>; ".toList ", but got: ".toList
      ['n', 'o', 'n', 'e'] ['s', 'o', 'l', 'i', 'd']
    have e : strokeMessage value = "invalid <stroke-style>; ".toList ++ "expected one of (".toList ++ ['n', 'o', 'n', 'e'] ++
        ", ".toList ++ ['s', 'o', 'l', 'i', 'd'] ++ ')' :: ", but got: ".toList ++ '\'' :: value ++ ['\''] := by
      unfold strokeMessage; rw [t12]
      generalize "invalid <stroke-style>; ".toList = a, "expected one of (".toList = b, ", but got: ".toList = c, ", ".toList = d
      simp only [List.append_assoc, List.cons_append, List.nil_append]
    rw [e]; exact this
  · intro w hw
    have hl : Calls [.literal w.toList] w := ⟨_, [], .inl rfl, .inl rfl⟩
    simp only [List.mem_cons, List.not_mem_nil, or_false] at hw
    rcases hw with hw | hw
    · refine ⟨_, { k with width := 0 }, hl, ?_⟩
      rw [hw]; rfl
    · refine ⟨_, { k with dashed := false }, hl, ?_⟩
      rw [hw]; rfl
  · intro w e hc hw
    have h := headWord_calls hc
    simp only [List.mem_cons, List.not_mem_nil, or_false, not_or] at hw
    obtain ⟨h1, h2, h3, h4⟩ := hw
    have d1 : w.toList ≠ ['d', 'a', 's', 'h'] := h1
    have d2 : w.toList ≠ ['d', 'a', 's', 'h', 'e', 'd'] := h2
    simp only [readStrokeStyle, no_word h h3, no_word h h4, no_call h h3, no_call h h4, no_word h d1, no_word h d2,
      no_call h d1, no_call h d2, Option.isSome_none, Bool.or_self, Bool.false_eq_true, if_false]

/-- C120, violated by the code: dashed lines may be used, but the message does not tell. -/
theorem C120_stroke_fails (E : ReadEnv) (k : StrokeState) (value : Str) :
    ∃ ws, Advises value (strokeMessage value) ws ∧
      ∀ w : String, w = "dash" ∨ w = "dashed" → w.toList ∉ ws ∧
        ∃ e k', Calls [e] w ∧ readStrokeStyle E [e] k = (k', none) := by
  refine ⟨[['n', 'o', 'n', 'e'], ['s', 'o', 'l', 'i', 'd']], ?_, ?_⟩
  · obtain ⟨ws, h, _⟩ := C120_stroke_partial E k value
    have := Advises.parens (value := value) "invalid <stroke-style>; ".toList ", but got: ".toList
      ['n', 'o', 'n', 'e'] ['s', 'o', 'l', 'i', 'd']
    have e : strokeMessage value = "invalid <stroke-style>; ".toList ++ "expected one of (".toList ++ ['n', 'o', 'n', 'e'] ++
        ", ".toList ++ ['s', 'o', 'l', 'i', 'd'] ++ ')' :: ", but got: ".toList ++ '\'' :: value ++ ['\''] := by
      unfold strokeMessage; rw [t12]
      generalize "invalid <stroke-style>; ".toList = a, "expected one of (".toList = b, ", but got: ".toList = c, ", ".toList = d
      simp only [List.append_assoc, List.cons_append, List.nil_append]
    rw [e]; exact this
  · intro w hw
    rcases hw with rfl | rfl
    · exact ⟨by decide, .literal "dash".toList, _, ⟨_, [], .inl rfl, .inl rfl⟩, rfl⟩
    · exact ⟨by decide, .literal "dashed".toList, _, ⟨_, [], .inl rfl, .inl rfl⟩, rfl⟩

/-- An example: `scale-x: loog` -/
example : kindMessage "loog".toList =
    "invalid value: 'loog'; expected one of: 'linear', 'log', 'logarithmic', 'invert', 'inverted', 'categorical'".toList := by
  decide +kernel

theorem switch_text : "argument error; expected 'on' or 'off', got: ".toList = "argument error; ".toList ++ "expected '".toList ++
    "on".toList ++ "' or '".toList ++ "off".toList ++ "', ".toList ++ "got: ".toList := by decide +kernel

/-- C120: switches. -/
theorem C120_switch (value : Str) :
    ∃ ws, Advises value (switchMessage value) ws ∧
      (∀ w, w ∈ ws → ∃ b, readSwitch [.literal w] = .ok b ∧ readSwitch [.value w] = .ok b) ∧
      (∀ w, w ∉ ws → (∀ b, readSwitch [.literal w] ≠ .ok b) ∧ ∀ b, readSwitch [.value w] ≠ .ok b) := by
  refine ⟨["on".toList, "off".toList], ?_, ?_, ?_⟩
  · have := Advises.either (value := value) "argument error; ".toList "got: ".toList "on".toList "off".toList
    rw [← switch_text] at this
    exact this
  · intro w hw
    simp only [List.mem_cons, List.not_mem_nil, or_false] at hw
    rcases hw with rfl | rfl
    · exact ⟨true, rfl, rfl⟩
    · exact ⟨false, rfl, rfl⟩
  · intro w hw
    simp only [List.mem_cons, List.not_mem_nil, or_false, not_or] at hw
    have h1 : ¬ w = ['o', 'n'] := hw.1
    have h2 : ¬ w = ['o', 'f', 'f'] := hw.2
    simp [readSwitch, isWord, Expr.isValue, Expr.getValue, h1, h2]

end Clip
