import Verif.Lemmas.OptionArgs
import Verif.Props.AxisValues
set_option linter.unusedSimpArgs false
/-!
# C92: scale settings
-/
namespace Clip
open Drawing Options AxisSpec
variable {φ : Type}

/-- C92: a scale setting is accepted exactly if it consists of words of the list, and they act one after the other. -/
theorem C92_scale (P : PlotEnv φ) (args : List Expr) (s s' : Scale) :
    scaleConfigureKind P.stod P.readFile args s = (s', none) ↔ ScaleWords P args s s' :=
  ⟨fun h => eff_scale _ _ _ h, scaleWords_run⟩

theorem scaleWords_mem {P : PlotEnv φ} {args : List Expr} {s s' : Scale} (h : ScaleWords P args s s') {e : Expr} (he : e ∈ args) :
    ∃ a b, ScaleWord P e a b := by
  induction h with
  | nil s => simp at he
  | cons hw _ ih =>
    rcases List.mem_cons.1 he with rfl | he
    · exact ⟨_, _, hw⟩
    · exact ih he

theorem isWord_inj {k : Expr} {v w : String} (h : IsWord k v) (h' : IsWord k w) : v = w := by
  rcases h with rfl | rfl <;> rcases h' with h' | h' <;> first | cases h' | skip
  · exact String.toList_inj.1 (Expr.literal.inj h')
  · exact String.toList_inj.1 (Expr.value.inj h')

/-- C92, violated by the code: the documented forms `(linear)`, `(log)`, `(logarithmic)`, `(invert)` and `(inverted)` are
refused. -/
theorem C92_list_forms_refused (P : PlotEnv φ) (k : Expr) (w : String)
    (hw : w ∈ ["linear", "log", "logarithmic", "invert", "inverted"]) (hk : IsWord k w) (pre post : List Expr) (s s' : Scale) :
    scaleConfigureKind P.stod P.readFile (pre ++ .list [k] :: post) s ≠ (s', none) := by
  intro h
  obtain ⟨a, b, hab⟩ := scaleWords_mem ((C92_scale P _ _ _).1 h) (e := .list [k]) (by simp)
  cases hab with
  | linear h => rcases h with h | h <;> cases h
  | log h => rcases h with (h | h) | (h | h) <;> cases h
  | invert h => rcases h with (h | h) | (h | h) <;> cases h
  | categorical h => rcases h with h | h <;> cases h
  | categories h _ =>
    have := isWord_inj hk h
    subst this
    revert hw; decide

/-- C92, violated by the code: the documented forms `(categorical)` and `(categorical-bounds)` of placements are refused. -/
theorem C92_placement_list_forms_refused (stod : Str → Option (ℝ × Nat)) (k : Expr) (w : String)
    (hw : w ∈ ["categorical", "categorical-bounds", "none"]) (hk : IsWord k w) (as rest : List Expr) (t : TickSpec) :
    scaleConfigureLayout stod (.list (k :: as) :: rest) ≠ .ok t := by
  intro h
  have hp := (C92_placement _ _ _).1 h
  clear h
  cases hp with
  | linear h _ => have := isWord_inj hk h; subst this; revert hw; decide
  | align h _ => have := isWord_inj hk h; subst this; revert hw; decide
  | alignat h _ _ => have := isWord_inj hk h; subst this; revert hw; decide
  | interval h _ _ _ => have := isWord_inj hk h; subst this; revert hw; decide
  | exponential h _ => have := isWord_inj hk h; subst this; revert hw; decide
  | expSteps h _ _ => have := isWord_inj hk h; subst this; revert hw; decide
  | subdivide h _ => have := isWord_inj hk h; subst this; revert hw; decide
  | subdivideDefault h => have := isWord_inj hk h; subst this; revert hw; decide
  | categorical h => rcases h with h | h <;> cases h
  | bounds h => rcases h with h | h <;> cases h
  | none h => rcases h with h | h <;> cases h

/-- C92, violated by the code: `inverted` has no effect on a categorical scale. -/
theorem C92_inverted_categorical (P : PlotEnv φ) (s : Scale) (hk : s.kind = .categorical) (b : DataBuffer (Option ℝ)) :
    translateBuf P { s with inverted := true } b = translateBuf P { s with inverted := false } b := by
  unfold translateBuf translatevBuf
  rw [hk]
  have hm : ∀ ts, mapCategories { s with inverted := true, kind := .categorical } ts =
      mapCategories { s with inverted := false, kind := .categorical } ts := by
    intro ts
    induction ts with
    | nil => rfl
    | cons t ts ih => unfold mapCategories; rw [ih]
  dsimp only
  cases databufToText P.toS b with
  | none => rfl
  | some ts =>
    dsimp only
    rw [hm ts]
    rfl

/-- C92, violated by the code: no setting of a scale undoes `inverted`. -/
theorem C92_inverted_stays (P : PlotEnv φ) (args : List Expr) (s s' : Scale)
    (h : scaleConfigureKind P.stod P.readFile args s = (s', none)) (hi : s.inverted = true) : s'.inverted = true := by
  have hw := (C92_scale P _ _ _).1 h
  clear h
  induction hw with
  | nil s => exact hi
  | cons hw _ ih => exact ih (by cases hw <;> first | exact hi | rfl)

/-- C92, violated by the code: `categorical linear` is not `linear`: the automatic limits are wider by a half on either
side. -/
theorem C92_padding_stays (P : PlotEnv φ) (s : Scale) (h0 : s.min = none) (h1 : s.max = none) (h2 : s.padding = 0)
    (lo hi : ℝ) (h3 : s.hints.minValue = some lo) (h4 : s.hints.maxValue = some hi) :
    ∃ s₁ s₂, scaleConfigureKind P.stod P.readFile [.literal "linear".toList] s = (s₁, none) ∧
      scaleConfigureKind P.stod P.readFile [.literal "categorical".toList, .literal "linear".toList] s = (s₂, none) ∧
      s₁.kind = .linear ∧ s₂.kind = .linear ∧ scaleMin .exact s₁ = lo ∧ scaleMin .exact s₂ = lo - 1 / 2 ∧
      scaleMax .exact s₁ = hi ∧ scaleMax .exact s₂ = hi + 1 / 2 := by
  refine ⟨_, _, (C92_scale P _ _ _).2 (.cons (.linear (.inl rfl)) (.nil _)),
    (C92_scale P _ _ _).2 (.cons (.categorical (.inl rfl)) (.cons (.linear (.inl rfl)) (.nil _))), rfl, rfl, ?_, ?_, ?_, ?_⟩ <;>
    simp [scaleMin, scaleMax, h0, h1, h2, h3, h4, Arith.exact]

theorem buildCategories_other (cats : List Str) (k : Nat) (m : Str → Option Nat) (c : Str) (h : c ∉ cats) :
    buildCategories cats k m c = m c := by
  induction cats generalizing k m with
  | nil => rfl
  | cons d cats ih =>
    simp only [List.mem_cons, not_or] at h
    rw [buildCategories, ih _ _ h.2]
    simp [h.1]

theorem buildCategories_nodup (cats : List Str) (k : Nat) (m : Str → Option Nat) (hd : cats.Nodup) (i : Nat)
    (hi : i < cats.length) : buildCategories cats k m cats[i] = some (k + i) := by
  induction cats generalizing k m i with
  | nil => simp at hi
  | cons d cats ih =>
    rw [buildCategories]
    rw [List.nodup_cons] at hd
    cases i with
    | zero =>
      rw [List.getElem_cons_zero, buildCategories_other _ _ _ _ hd.1]
      simp
    | succ i =>
      rw [List.getElem_cons_succ, ih _ _ hd.2 i (by simpa using hi)]
      congr 1; omega

/-- C92, violated by the code: a second list of categories does not replace the first: data with a category of the first
list only are accepted, and drawn at the place of another category. -/
theorem C92_stale_category (P : PlotEnv φ) (s s' : Scale) (k₁ k₂ : Expr) (first second : List Expr) (cats₁ cats₂ : List Str)
    (hk₁ : IsWord k₁ "categorical") (hk₂ : IsWord k₂ "categorical")
    (h₁ : first = cats₁.map .literal) (h₂ : second = cats₂.map .literal) (hs : s.categoriesMap = fun _ => none)
    (h : scaleConfigureKind P.stod P.readFile [.list (k₁ :: first), .list (k₂ :: second)] s = (s', none))
    (c : Str) (hc : c ∈ cats₁) (hc' : c ∉ cats₂) (hne : cats₂ ≠ []) (hd : cats₂.Nodup) :
    s'.categories = cats₂ ∧ ∃ d ∈ cats₂, ∃ p, GoesTo P s' (oneText c) p ∧ GoesTo P s' (oneText d) p := by
  have key : ∀ cats : List Str, exprIsListHead (cats.map Expr.literal) "csv".toList = false ∧
      exprToStrings (cats.map .literal) = .ok cats := by
    intro cats
    constructor
    · cases cats <;> rfl
    · induction cats with
      | nil => rfl
      | cons c cs ih =>
        rw [List.map_cons, exprToStrings, ih]
        rfl
  subst h₁ h₂
  have h₁ := key cats₁
  have h₂ := key cats₂
  have e : s' =
      { s with
        kind := .categorical
        padding := 1 / 2
        categories := cats₂
        categoriesMap := buildCategories cats₂ 0 (buildCategories cats₁ 0 s.categoriesMap) } := by
    have w : ScaleWords P [.list (k₁ :: cats₁.map .literal), .list (k₂ :: cats₂.map .literal)] s _ :=
      .cons (.categories hk₁ (.inl h₁)) (.cons (.categories hk₂ (.inl h₂)) (.nil _))
    rw [(C92_scale P _ _ _).2 w] at h
    exact (Prod.mk.inj h).1.symm
  have hlen : cats₂.length ≠ 0 := by simpa using hne
  obtain ⟨i, hi⟩ : ∃ i, buildCategories cats₁ 0 (fun _ => none) c = some i := by
    cases hb : buildCategories cats₁ 0 (fun _ => none) c with
    | none => exact absurd hc ((C22_category_index _ _).2.1 hb)
    | some i => exact ⟨i, rfl⟩
  have hn : (0 : ℝ) < (cats₂.length : ℝ) := by exact_mod_cast Nat.pos_of_ne_zero hlen
  have hgo : ∀ (t : Str) (j : Nat), s'.categoriesMap t = some j → GoesTo P s' (oneText t)
      ((min (j : ℝ) (cats₂.length - 1) + 1 / 2) / cats₂.length) := by
    intro t j hj
    have e0 : s'.kind = .categorical := by rw [e]
    unfold GoesTo translateBuf translatevBuf oneText
    rw [e0]
    have e2 : databufToText P.toS ⟨[(false, 0)], [], [t]⟩ = some [t] := rfl
    dsimp only
    rw [e2]
    dsimp only [mapCategories]
    rw [hj]
    dsimp only [List.map]
    have e4 : scaleTranslate .exact s' (j : ℝ) = some ((min (j : ℝ) (cats₂.length - 1) + 1 / 2) / cats₂.length) := by
      unfold scaleTranslate
      rw [e0]
      have e5 : s'.categories = cats₂ := by rw [e]
      have e6 : s'.padding = 1 / 2 := by rw [e]
      have h1 : (1 : ℝ) ≤ cats₂.length := by exact_mod_cast Nat.pos_of_ne_zero hlen
      have h0 : (0 : ℝ) ≤ min (j : ℝ) (cats₂.length - 1) := le_min (Nat.cast_nonneg j) (by linarith)
      simp only [translateCategorical, e5, e6, hlen, if_false, Nat.floor_natCast]
      rw [max_eq_right h0, show (cats₂.length : ℝ) - 1 + 1 / 2 * 2 = cats₂.length by ring, if_neg hn.ne']
    rw [e4]
    rfl
  refine ⟨by rw [e], ?_⟩
  have hm : min i (cats₂.length - 1) < cats₂.length := by omega
  refine ⟨cats₂[min i (cats₂.length - 1)], List.getElem_mem _, _, hgo c i ?_, ?_⟩
  · rw [e]
    show buildCategories cats₂ 0 (buildCategories cats₁ 0 s.categoriesMap) c = some i
    rw [buildCategories_other _ _ _ _ hc', hs, hi]
  · have hj : s'.categoriesMap cats₂[min i (cats₂.length - 1)] = some (min i (cats₂.length - 1)) := by
      rw [e]
      show buildCategories cats₂ 0 (buildCategories cats₁ 0 s.categoriesMap) _ = some _
      rw [buildCategories_nodup _ _ _ hd _ hm, Nat.zero_add]
    have := hgo _ _ hj
    have e7 : min ((min i (cats₂.length - 1) : ℕ) : ℝ) (cats₂.length - 1) = min (i : ℝ) (cats₂.length - 1) := by
      have : ((cats₂.length - 1 : ℕ) : ℝ) = (cats₂.length : ℝ) - 1 := by
        rw [Nat.cast_sub (Nat.pos_of_ne_zero hlen)]; simp
      rw [Nat.cast_min, this, min_assoc, min_self]
    rw [e7] at this
    exact this

/-- `logarithmic inverted` and `(categorical A B)` are accepted. -/
example (P : PlotEnv φ) (s : Scale) : ScaleWords P [.literal "logarithmic".toList, .literal "inverted".toList] s
    { s with kind := .logarithmic, inverted := true } :=
  .cons (.log (.inr (.inl rfl))) (.cons (.invert (.inr (.inl rfl))) (.nil _))

example (P : PlotEnv φ) : scaleConfigureKind P.stod P.readFile
    [.list [.literal "categorical".toList, .literal ['A'], .value ['B']]] {} =
      ({ kind := .categorical, padding := 1 / 2, categories := [['A'], ['B']]
         categoriesMap := buildCategories [['A'], ['B']] 0 fun _ => none }, none) :=
  (C92_scale P _ _ _).2 (.cons (.categories (.inl rfl) (.inl ⟨rfl, rfl⟩)) (.nil _))

/-- `(linear 30)` as a placement is accepted. -/
example : scaleConfigureLayout someStod [.list [.literal "linear".toList, .literal ['3', '0']]] = .ok (.linear 30) :=
  (C92_placement _ _ _).2 (.linear (.inl rfl) (by simp [exprToFloat, Expr.isValue, Expr.getValue, someStod]))

/-- First `(categorical A B)`, then `(categorical X)`: `A` is drawn where `X` is drawn. -/
example (P : PlotEnv φ) : ∃ s', scaleConfigureKind P.stod P.readFile
    [.list [.literal "categorical".toList, .literal ['A'], .literal ['B']], .list [.literal "categorical".toList, .literal ['X']]] {} =
      (s', none) ∧ s'.categories = [['X']] ∧ ∃ d ∈ [['X']], ∃ p, GoesTo P s' (oneText ['A']) p ∧ GoesTo P s' (oneText d) p := by
  have h := (C92_scale P _ _ _).2 (.cons (.categories (k := .literal "categorical".toList) (args := [.literal ['A'], .literal ['B']])
    (s := {}) (.inl rfl) (.inl ⟨rfl, rfl⟩)) (.cons (.categories (k := .literal "categorical".toList) (args := [.literal ['X']])
    (.inl rfl) (.inl ⟨rfl, rfl⟩)) (.nil _)))
  exact ⟨_, h, C92_stale_category P {} _ _ _ _ _ [['A'], ['B']] [['X']] (.inl rfl) (.inl rfl) rfl rfl rfl h ['A'] (by simp) (by simp)
    (by simp) (by simp)⟩

end Clip
