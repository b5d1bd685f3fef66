import Verif.Lemmas.Scale
import Verif.Spec.Scale
/-!
# C20-C23: scales (`src/scale.cc`)
-/
set_option linter.unusedSimpArgs false
namespace Clip
open ScaleSpec

/-- C20: on a linear scale the limits are drawn at the ends, positions are monotone and values of the domain are
drawn inside the plot - for every way of rounding double operations that is monotone and exact on 0 and 1. -/
theorem C20_linear_any_rounding (a : Arith) (ha : a.Good) (s : Scale) (hk : s.kind = .linear)
    (hpos : 0 < a.d (scaleMax a s - scaleMin a s)) :
    scaleTranslate a s (scaleMin a s) = some (if s.inverted then 1 else 0) ∧
    scaleTranslate a s (scaleMax a s) = some (if s.inverted then 0 else 1) ∧
    (∀ v w, v ≤ w → ∃ p q, scaleTranslate a s v = some p ∧ scaleTranslate a s w = some q ∧
      (if s.inverted then q ≤ p else p ≤ q)) ∧
    (∀ v, scaleMin a s ≤ v → v ≤ scaleMax a s → Inside (scaleTranslate a s v)) := by
  have hne : a.d (scaleMax a s - scaleMin a s) ≠ 0 := hpos.ne'
  have hmono : ∀ v w, v ≤ w → a.d (a.d (v - scaleMin a s) / a.d (scaleMax a s - scaleMin a s)) ≤
      a.d (a.d (w - scaleMin a s) / a.d (scaleMax a s - scaleMin a s)) := by
    intro v w h
    apply ha.mono
    apply div_le_div_of_nonneg_right _ hpos.le
    exact ha.mono (by linarith)
  have hmin : a.d (a.d (scaleMin a s - scaleMin a s) / a.d (scaleMax a s - scaleMin a s)) = 0 := by
    rw [sub_self, ha.zero, zero_div, ha.zero]
  have hmax : a.d (a.d (scaleMax a s - scaleMin a s) / a.d (scaleMax a s - scaleMin a s)) = 1 := by
    rw [div_self hne, ha.one]
  have htr : ∀ v, scaleTranslate a s v = some (if s.inverted then
      a.d (1 - a.d (a.d (v - scaleMin a s) / a.d (scaleMax a s - scaleMin a s)))
      else a.d (a.d (v - scaleMin a s) / a.d (scaleMax a s - scaleMin a s))) := by
    intro v; simp only [scaleTranslate, hk, translateLinear, hne, if_false]
  refine ⟨?_, ?_, ?_, ?_⟩
  · simp only [scaleTranslate, hk, translateLinear, hne, if_false, hmin]
    split <;> simp [ha.one]
  · simp only [scaleTranslate, hk, translateLinear, hne, if_false, hmax]
    split <;> simp [ha.zero]
  · intro v w h
    refine ⟨_, _, htr v, htr w, ?_⟩
    have := hmono v w h
    cases s.inverted
    · simpa using this
    · simp
      exact ha.mono (by linarith)
  · intro v h1 h2
    refine ⟨_, htr v, ?_⟩
    have l1 := hmono _ _ h1
    have l2 := hmono _ _ h2
    rw [hmin] at l1
    rw [hmax] at l2
    cases s.inverted
    · simpa using ⟨l1, l2⟩
    · simp
      constructor
      · rw [← ha.zero]; exact ha.mono (by linarith)
      · refine (ha.mono (?_ : _ ≤ (1 : ℝ))).trans ha.one.le
        linarith

/-- C20: in exact arithmetic positions are strictly monotone (descending if inverted) and translation is
undone by untranslation, and vice versa. -/
theorem C20_linear_exact (s : Scale) (hk : s.kind = .linear) (hlt : scaleMin .exact s < scaleMax .exact s) :
    (∀ v w, v < w → ∃ p q, scaleTranslate .exact s v = some p ∧ scaleTranslate .exact s w = some q ∧
      (if s.inverted then q < p else p < q)) ∧
    (∀ v, (scaleTranslate .exact s v).bind (scaleUntranslate .exact s) = some v) ∧
    (∀ p, (scaleUntranslate .exact s p).bind (scaleTranslate .exact s) = some p) := by
  have hpos : 0 < scaleMax .exact s - scaleMin .exact s := by linarith
  have htr : ∀ v, scaleTranslate .exact s v = _ := fun v =>
    (show scaleTranslate .exact s v = translateLinear .exact s v by simp only [scaleTranslate, hk]).trans
      (translateLinear_exact s v hlt)
  refine ⟨?_, ?_, ?_⟩
  · intro v w h
    refine ⟨_, _, htr v, htr w, ?_⟩
    have : (v - scaleMin .exact s) / (scaleMax .exact s - scaleMin .exact s) <
        (w - scaleMin .exact s) / (scaleMax .exact s - scaleMin .exact s) :=
      div_lt_div_of_pos_right (by linarith) hpos
    cases s.inverted
    · simpa using this
    · simpa using this
  · intro v
    simp only [scaleTranslate, scaleUntranslate, hk, translateLinear_exact s _ hlt, Option.bind_some,
      untranslateLinear, Arith.exact_d, Option.some.injEq]
    cases s.inverted <;> simp <;> field_simp <;> ring
  · intro p
    simp only [scaleTranslate, scaleUntranslate, hk, translateLinear_exact s _ hlt, Option.bind_some,
      untranslateLinear, Arith.exact_d, Option.some.injEq]
    cases s.inverted <;> simp <;> field_simp <;> ring

/-- A scale with explicit limits. -/
def exScale (lo hi : ℝ) : Scale := { min := some lo, max := some hi }

example : scaleMin .exact (exScale 2 10) < scaleMax .exact (exScale 2 10) ∧ (exScale 2 10).kind = .linear ∧
    0 < Arith.exact.d (scaleMax .exact (exScale 2 10) - scaleMin .exact (exScale 2 10)) := by
  norm_num [scaleMin, scaleMax, exScale]

/-- C21: the logarithmic scale draws the limits at the ends and is strictly monotone, for positive limits. -/
theorem C21_log_translate (s : Scale) (hk : s.kind = .logarithmic) (hb : 1 < s.logBase)
    (h0 : 0 < scaleMin .exact s) (hlt : scaleMin .exact s < scaleMax .exact s) :
    scaleTranslate .exact s (scaleMin .exact s) = some (if s.inverted then 1 else 0) ∧
    scaleTranslate .exact s (scaleMax .exact s) = some (if s.inverted then 0 else 1) ∧
    (∀ v w, 0 < v → v < w → ∃ p q, scaleTranslate .exact s v = some p ∧ scaleTranslate .exact s w = some q ∧
      (if s.inverted then q < p else p < q)) := by
  have hlb : 0 < Real.log s.logBase := Real.log_pos hb
  have hlog : ∀ x, 0 < x → logIn s.logBase x = some (Real.log x / Real.log s.logBase) := by
    intro x hx
    have h1 : ¬ (s.logBase ≤ 0 ∨ s.logBase = 1) := by
      rintro (h | h) <;> linarith
    simp [logIn, hx.ne', not_lt.2 hx.le, h1]
  have hmax : 0 < scaleMax .exact s := h0.trans hlt
  have hd : 0 < Real.log (scaleMax .exact s) / Real.log s.logBase -
      Real.log (scaleMin .exact s) / Real.log s.logBase := by
    rw [← sub_div]
    apply div_pos _ hlb
    have := Real.log_lt_log h0 hlt
    linarith
  have htr : ∀ v, 0 < v → scaleTranslate .exact s v = some (if s.inverted then
      1 - (Real.log v / Real.log s.logBase - Real.log (scaleMin .exact s) / Real.log s.logBase) /
        (Real.log (scaleMax .exact s) / Real.log s.logBase - Real.log (scaleMin .exact s) / Real.log s.logBase)
      else (Real.log v / Real.log s.logBase - Real.log (scaleMin .exact s) / Real.log s.logBase) /
        (Real.log (scaleMax .exact s) / Real.log s.logBase -
          Real.log (scaleMin .exact s) / Real.log s.logBase)) := by
    intro v hv
    simp only [scaleTranslate, hk, translateLog, not_le.2 hv, if_false, hlog _ h0, hlog _ hmax, hlog _ hv,
      hd.ne']
  refine ⟨?_, ?_, ?_⟩
  · rw [htr _ h0]; simp
  · rw [htr _ hmax, div_self hd.ne']; simp
  · intro v w hv hvw
    refine ⟨_, _, htr v hv, htr w (hv.trans hvw), ?_⟩
    have : (Real.log v / Real.log s.logBase - Real.log (scaleMin .exact s) / Real.log s.logBase) /
        (Real.log (scaleMax .exact s) / Real.log s.logBase - Real.log (scaleMin .exact s) / Real.log s.logBase) <
        (Real.log w / Real.log s.logBase - Real.log (scaleMin .exact s) / Real.log s.logBase) /
        (Real.log (scaleMax .exact s) / Real.log s.logBase -
          Real.log (scaleMin .exact s) / Real.log s.logBase) := by
      apply div_lt_div_of_pos_right _ hd
      have := div_lt_div_of_pos_right (Real.log_lt_log hv hvw) hlb
      linarith
    cases s.inverted
    · simpa using this
    · simpa using this

/-- C21 (violated by the code): untranslating the position of the minimum never gives the minimum, but the
minimum plus one. -/
theorem C21_log_untranslate_fails (s : Scale) (hk : s.kind = .logarithmic) (hb : 1 < s.logBase)
    (h0 : 0 < scaleMin .exact s) (hlt : scaleMin .exact s < scaleMax .exact s) :
    (scaleTranslate .exact s (scaleMin .exact s)).bind (scaleUntranslate .exact s) =
      some (scaleMin .exact s + 1) := by
  rw [(C21_log_translate s hk hb h0 hlt).1]
  have h1 : ¬ (scaleMax .exact s - scaleMin .exact s ≤ 0 ∨ s.logBase ≤ 0 ∨ s.logBase = 1) := by
    rintro (h | h | h) <;> linarith
  simp only [Option.bind_some, scaleUntranslate, hk, untranslateLog, h1, if_false]
  cases s.inverted <;> simp

/-- C21: the position at which the code's inverse is right: the maximum. -/
theorem C21_log_untranslate_max_partial (s : Scale) (hk : s.kind = .logarithmic) (hb : 1 < s.logBase)
    (h0 : 0 < scaleMin .exact s) (hlt : scaleMin .exact s < scaleMax .exact s) :
    (scaleTranslate .exact s (scaleMax .exact s)).bind (scaleUntranslate .exact s) = some (scaleMax .exact s) := by
  rw [(C21_log_translate s hk hb h0 hlt).2.1]
  have h1 : ¬ (scaleMax .exact s - scaleMin .exact s ≤ 0 ∨ s.logBase ≤ 0 ∨ s.logBase = 1) := by
    rintro (h | h | h) <;> linarith
  have hlb : 0 < Real.log s.logBase := Real.log_pos hb
  simp only [Option.bind_some, scaleUntranslate, hk, untranslateLog, h1, if_false]
  have : s.logBase ^ (Real.log (scaleMax .exact s - scaleMin .exact s) / Real.log s.logBase) =
      scaleMax .exact s - scaleMin .exact s := by
    rw [Real.rpow_def_of_pos (by linarith), mul_div_cancel₀ _ hlb.ne', Real.exp_log (by linarith)]
  cases s.inverted <;> simp [this]

/-- C21 (violated by the code): with a lower limit of zero, values below one are drawn outside the plot, and with a
negative lower limit nothing has a position. -/
theorem C21_log_nonpositive_min (s : Scale) (hk : s.kind = .logarithmic) (hb : 1 < s.logBase)
    (hinv : s.inverted = false) (hmax : 1 < scaleMax .exact s) :
    (scaleMin .exact s = 0 → ∀ v, 0 < v → v < 1 → ∃ p, scaleTranslate .exact s v = some p ∧ p < 0) ∧
    (scaleMin .exact s < 0 → ∀ v, 0 < v → scaleTranslate .exact s v = none) := by
  have hlb : 0 < Real.log s.logBase := Real.log_pos hb
  have hlog : ∀ x, 0 < x → logIn s.logBase x = some (Real.log x / Real.log s.logBase) := by
    intro x hx
    have h1 : ¬ (s.logBase ≤ 0 ∨ s.logBase = 1) := by
      rintro (h | h) <;> linarith
    simp [logIn, hx.ne', not_lt.2 hx.le, h1]
  constructor
  · intro h0 v hv hv1
    have hd : 0 < Real.log (scaleMax .exact s) / Real.log s.logBase := div_pos (Real.log_pos hmax) hlb
    refine ⟨(Real.log v / Real.log s.logBase) / (Real.log (scaleMax .exact s) / Real.log s.logBase), ?_, ?_⟩
    · have : logIn s.logBase 0 = some 0 := by simp [logIn]
      simp [scaleTranslate, hk, translateLog, not_le.2 hv, h0, this, hlog _ (by linarith : 0 < scaleMax .exact s),
        hlog _ hv, hd.ne', hinv]
    · apply div_neg_of_neg_of_pos _ hd
      exact div_neg_of_neg_of_pos (Real.log_neg hv hv1) hlb
  · intro h0 v hv
    have : logIn s.logBase (scaleMin .exact s) = none := by simp [logIn, h0.ne, h0]
    simp [scaleTranslate, hk, translateLog, not_le.2 hv, this]

example : ∃ s : Scale, s.kind = .logarithmic ∧ 1 < s.logBase ∧ s.inverted = false ∧ 0 < scaleMin .exact s ∧
    scaleMin .exact s < scaleMax .exact s ∧ 1 < scaleMax .exact s :=
  ⟨{ kind := .logarithmic, min := some 1, max := some 1000 }, rfl, by norm_num, rfl, by norm_num [scaleMin],
    by norm_num [scaleMin, scaleMax], by norm_num [scaleMax]⟩

/-- C22: the `i`-th of `n` categories with padding `p` is drawn inside the plot; neighbours have the distance
`1 / (n - 1 + 2p)`; the first and the last are equally far from the ends. -/
theorem C22_categorical (s : Scale) (hk : s.kind = .categorical) (n : Nat) (hn : s.categories.length = n)
    (hp : 0 ≤ s.padding) (hpos : (0 : ℝ) < n - 1 + s.padding * 2) (h1 : 1 ≤ n) :
    (∀ i < n, Inside (scaleTranslate .exact s i)) ∧
    (∀ i, i + 1 < n → ∃ p q, scaleTranslate .exact s i = some p ∧ scaleTranslate .exact s (i + 1 : ℕ) = some q ∧
      p < q ∧ q - p = 1 / (n - 1 + s.padding * 2)) ∧
    (∀ i < n, ∃ p q, scaleTranslate .exact s i = some p ∧ scaleTranslate .exact s (n - 1 - i : ℕ) = some q ∧
      p + q = 1) := by
  have hn0 : n ≠ 0 := by omega
  have key : ∀ i < n, scaleTranslate .exact s (i : ℝ) = some ((i + s.padding) / (n - 1 + s.padding * 2)) := by
    intro i hi
    have h2 : (i : ℝ) ≤ (n : ℝ) - 1 := by
      have : i + 1 ≤ n := hi
      have : (i : ℝ) + 1 ≤ n := by exact_mod_cast this
      linarith
    have h3 : (0 : ℝ) ≤ i := by positivity
    simp [scaleTranslate, hk, translateCategorical, hn, hn0, hpos.ne', min_eq_left h2, max_eq_right h3]
  refine ⟨?_, ?_, ?_⟩
  · intro i hi
    refine ⟨_, key i hi, ?_, ?_⟩
    · positivity
    · rw [div_le_one hpos]
      have : (i : ℝ) + 1 ≤ n := by exact_mod_cast hi
      linarith
  · intro i hi
    refine ⟨_, _, key i (by omega), key (i + 1) hi, ?_, ?_⟩
    · apply div_lt_div_of_pos_right _ hpos
      push_cast; linarith
    · rw [← sub_div]; push_cast; ring
  · intro i hi
    refine ⟨_, _, key i hi, key (n - 1 - i) (by omega), ?_⟩
    rw [← add_div]
    have : ((n - 1 - i : ℕ) : ℝ) = (n : ℝ) - 1 - i := by
      rw [Nat.cast_sub (by omega), Nat.cast_sub (by omega)]; simp
    rw [this, div_eq_one_iff_eq hpos.ne']
    ring

/-- Folding `push` over indexes. -/
theorem foldl_push (pos : Nat → Option ℝ) (lab : Nat → Str) (n : Nat) :
    (List.range n).foldl (fun l i => l.push (pos i) (lab i)) ({} : ScaleLayout) =
      ⟨(List.range n).map pos, (List.range n).map lab⟩ := by
  induction n with
  | zero => rfl
  | succ n ih => rw [List.range_succ, List.foldl_append, ih]; simp [ScaleLayout.push]

/-- C22: with the padding the code uses for categorical scales, the cell bounds are `0, 1/n, ..., 1`, and each
category is in the middle of its cell, with its own label. -/
theorem C22_bounds (s : Scale) (fmt : Formatter) (n : Nat) (hn : s.categories.length = n) (hp : s.padding = 0.5)
    (h1 : 1 ≤ n) :
    (layoutCategoricalBounds s).positions = (List.range (n + 1)).map (fun i : ℕ => some ((i : ℝ) / n)) ∧
    (layoutCategorical s fmt).positions = (List.range n).map (fun i : ℕ => some (((i : ℝ) / n + (i + 1 : ℕ) / n) / 2)) ∧
    (layoutCategorical s fmt).labels = s.categories.mapIdx fmt := by
  have hn0 : n ≠ 0 := by omega
  have hnR : (n : ℝ) ≠ 0 := by exact_mod_cast hn0
  have hden : (n : ℝ) - 1 + 0.5 * 2 = n := by norm_num
  have key : ∀ i < n, translateCategorical s i = some (((i : ℝ) + 0.5) / (n : ℝ)) := by
    intro i hi
    have h2 : (i : ℝ) ≤ (n : ℝ) - 1 := by
      have : (i : ℝ) + 1 ≤ n := by exact_mod_cast hi
      linarith
    have h3 : (0 : ℝ) ≤ i := by positivity
    simp only [translateCategorical, hn, hp, hden, hn0, hnR, if_false, min_eq_left h2, max_eq_right h3]
  have keyn : translateCategorical s n = some (((n : ℝ) - 1 + 0.5) / (n : ℝ)) := by
    have h2 : (n : ℝ) - 1 ≤ n := by linarith
    have h3 : (0 : ℝ) ≤ (n : ℝ) - 1 := by
      have : (1 : ℝ) ≤ n := by exact_mod_cast h1
      linarith
    simp only [translateCategorical, hn, hp, hden, hn0, hnR, if_false, min_eq_right h2, max_eq_right h3]
  refine ⟨?_, ?_, ?_⟩
  · unfold layoutCategoricalBounds
    simp only [hn]
    rw [foldl_push]
    apply List.map_congr_left
    intro i hi
    have hi : i < n + 1 := by simpa using hi
    rcases Nat.lt_or_ge i n with h | h
    · rw [key i h, hp, hden]
      simp only [Option.map_some, h.ne, if_false, Option.some.injEq]
      ring
    · have : i = n := by omega
      subst this
      rw [keyn, hp, hden]
      simp only [Option.map_some, if_true, Option.some.injEq]
      field_simp
      norm_num
      ring
  · unfold layoutCategorical
    rw [foldl_push, hn]
    apply List.map_congr_left
    intro i hi
    rw [key i (by simpa using hi)]
    push_cast
    congr 1
    field_simp
    ring
  · unfold layoutCategorical
    rw [foldl_push]
    apply List.ext_getElem
    · simp
    · intro i h1 h2
      have : i < s.categories.length := by simpa using h2
      simp [List.getD_eq_getElem?_getD, List.getElem?_eq_getElem this]

/-- C22 (violated by the code): a categorical scale cannot be inverted; the option is ignored. -/
theorem C22_inverted_ignored (a : Arith) (s : Scale) (hk : s.kind = .categorical) (v : ℝ) :
    scaleTranslate a { s with inverted := true } v = scaleTranslate a { s with inverted := false } v := by
  simp [scaleTranslate, hk, translateCategorical]

example : ∃ s : Scale, s.kind = .categorical ∧ s.categories.length = 3 ∧ 0 ≤ s.padding ∧
    (0 : ℝ) < (3 : ℕ) - 1 + s.padding * 2 ∧ s.padding = 0.5 :=
  ⟨{ kind := .categorical, categories := [['a'], ['b'], ['c']], padding := 0.5 }, rfl, rfl, by norm_num,
    by norm_num, rfl⟩

/-- C22: looking up a category finds its last position in the list of categories; other texts are not found. -/
theorem C22_category_index (cats : List Str) (c : Str) :
    (∀ i, buildCategories cats 0 (fun _ => none) c = some i ↔ cats[i]? = some c ∧ ∀ j, i < j → cats[j]? ≠ some c) ∧
    (buildCategories cats 0 (fun _ => none) c = none ↔ c ∉ cats) := by
  have key : ∀ (cats : List Str) (k : Nat) (m : Str → Option Nat),
      (c ∉ cats → buildCategories cats k m c = m c) ∧
      (∀ i, c ∈ cats → (buildCategories cats k m c = some i ↔
        ∃ n, i = k + n ∧ cats[n]? = some c ∧ ∀ j, n < j → cats[j]? ≠ some c)) := by
    intro cats
    induction cats with
    | nil => intro k m; simp [buildCategories]
    | cons d cats ih =>
      intro k m
      obtain ⟨h1, h2⟩ := ih (k + 1) fun x => if x = d then some k else m x
      constructor
      · intro h
        simp at h
        simp [buildCategories, h1 h.2, h.1]
      · intro i hm
        simp only [buildCategories]
        by_cases hc : c ∈ cats
        · rw [h2 i hc]
          constructor
          · rintro ⟨n, rfl, hn, hj⟩
            refine ⟨n + 1, by omega, by simpa using hn, ?_⟩
            intro j hj'
            cases j with
            | zero => omega
            | succ j => simpa using hj j (by omega)
          · rintro ⟨n, rfl, hn, hj⟩
            cases n with
            | zero =>
              obtain ⟨t, ht, he⟩ := List.mem_iff_getElem.1 hc
              exact absurd (by simp [List.getElem?_eq_getElem ht, he]) (hj (t + 1) (by omega))
            | succ n =>
              refine ⟨n, by omega, by simpa using hn, ?_⟩
              intro j hj'
              simpa using hj (j + 1) (by omega)
        · have hd : c = d := by simpa [hc] using hm
          subst hd
          rw [h1 hc]
          simp only [if_true, Option.some.injEq]
          constructor
          · rintro rfl
            refine ⟨0, rfl, by simp, ?_⟩
            intro j hj
            cases j with
            | zero => omega
            | succ j =>
              simp
              exact fun h => hc (List.mem_of_getElem? h)
          · rintro ⟨n, rfl, hn, _⟩
            cases n with
            | zero => rfl
            | succ n => exact absurd (List.mem_of_getElem? (by simpa using hn)) hc
  obtain ⟨k1, k2⟩ := key cats 0 fun _ => none
  by_cases hc : c ∈ cats
  · constructor
    · intro i
      rw [k2 i hc]
      simp
    · constructor
      · intro h
        exfalso
        -- a last occurrence exists
        have : ∃ i : ℕ, cats[i]? = some c ∧ ∀ j : ℕ, i < j → cats[j]? ≠ some c := by
          by_contra hcon
          push Not at hcon
          have step : ∀ n : ℕ, ∃ i : ℕ, n ≤ i ∧ cats[i]? = some c := by
            intro n
            induction n with
            | zero =>
              obtain ⟨t, ht, he⟩ := List.mem_iff_getElem.1 hc
              exact ⟨t, by omega, by simp [List.getElem?_eq_getElem ht, he]⟩
            | succ n ih =>
              obtain ⟨i, hi, he⟩ := ih
              obtain ⟨j, hj, he'⟩ := hcon i he
              exact ⟨j, by omega, he'⟩
          obtain ⟨i, hi, he⟩ := step cats.length
          rw [List.getElem?_eq_none hi] at he
          cases he
        obtain ⟨i, hi, hj⟩ := this
        have := (k2 i hc).2 ⟨i, by simp, hi, hj⟩
        rw [this] at h
        cases h
      · exact fun h => absurd hc h
  · rw [k1 hc]
    refine ⟨?_, by simp [hc]⟩
    intro i
    constructor
    · simp
    · rintro ⟨h, _⟩
      exact absurd (List.mem_of_getElem? h) hc

theorem fitHints_some (h : LimitHints ℝ) (v m M : ℝ) (hm : h.minValue = some m) (hM : h.maxValue = some M) :
    fitHints (fun x y : ℝ => decide (x > y)) h v = ⟨some (min m v), some (max M v)⟩ := by
  obtain ⟨a, b⟩ := h
  simp only at hm hM
  subst hm; subst hM
  unfold fitHints
  by_cases h1 : m > v
  · by_cases h2 : v > M
    · simp [h1, h2, min_eq_right h1.le, max_eq_right h2.le]
    · simp [h1, h2, min_eq_right h1.le, max_eq_left (not_lt.1 h2)]
  · by_cases h2 : v > M
    · simp [h1, h2, min_eq_left (not_lt.1 h1), max_eq_right h2.le]
    · simp [h1, h2, min_eq_left (not_lt.1 h1), max_eq_left (not_lt.1 h2)]

theorem fit_fold (vs : List ℝ) : ∀ (s : Scale) (m M : ℝ), s.hints = ⟨some m, some M⟩ →
    ∃ m' M', (vs.foldl scaleFit s).hints = ⟨some m', some M'⟩ ∧ (m' = m ∨ m' ∈ vs) ∧ (M' = M ∨ M' ∈ vs) ∧
      m' ≤ m ∧ M ≤ M' ∧ ∀ v ∈ vs, m' ≤ v ∧ v ≤ M' := by
  induction vs with
  | nil => intro s m M h; exact ⟨m, M, h, by simp⟩
  | cons v vs ih =>
    intro s m M h
    have hh : (scaleFit s v).hints = ⟨some (min m v), some (max M v)⟩ := by
      simp only [scaleFit]
      exact fitHints_some _ _ _ _ (by rw [h]) (by rw [h])
    obtain ⟨m', M', h1, h2, h3, h4, h5, h6⟩ := ih _ _ _ hh
    refine ⟨m', M', h1, ?_, ?_, h4.trans (min_le_left _ _), (le_max_left _ _).trans h5, ?_⟩
    · rcases h2 with h | h
      · rcases min_choice m v with h' | h'
        · exact .inl (h.trans h')
        · exact .inr (by simp [h, h'])
      · exact .inr (by simp [h])
    · rcases h3 with h | h
      · rcases max_choice M v with h' | h'
        · exact .inl (h.trans h')
        · exact .inr (by simp [h, h'])
      · exact .inr (by simp [h])
    · intro w hw
      rcases List.mem_cons.1 hw with rfl | hw
      · exact ⟨h4.trans (min_le_right _ _), (le_max_right _ _).trans h5⟩
      · exact h6 w hw

/-- C23: fitting any number of series (one after the other) makes the hints the smallest and the largest value. -/
theorem C23_fit (s : Scale) (hs : s.hints = {}) (series : List (List ℝ)) (hne : series.flatten ≠ []) :
    ∃ m M, (series.foldl (fun s vs => vs.foldl scaleFit s) s).hints = ⟨some m, some M⟩ ∧
      m ∈ series.flatten ∧ M ∈ series.flatten ∧ ∀ v ∈ series.flatten, m ≤ v ∧ v ≤ M := by
  have hf : series.foldl (fun s vs => vs.foldl scaleFit s) s = series.flatten.foldl scaleFit s := by
    rw [List.foldl_flatten]
  rw [hf]
  cases hv : series.flatten with
  | nil => exact absurd hv hne
  | cons v vs =>
    have hh : (scaleFit s v).hints = ⟨some v, some v⟩ := by simp [scaleFit, fitHints, hs]
    obtain ⟨m', M', h1, h2, h3, h4, h5, h6⟩ := fit_fold vs _ _ _ hh
    refine ⟨m', M', h1, ?_, ?_, ?_⟩
    · rcases h2 with h | h <;> simp [h]
    · rcases h3 with h | h <;> simp [h]
    · intro w hw
      rcases List.mem_cons.1 hw with rfl | hw
      · exact ⟨h4, h5⟩
      · exact h6 w hw

/-- C23: the order of the data does not matter. -/
theorem C23_order (s : Scale) (hs : s.hints = {}) (vs ws : List ℝ) (h : vs.Perm ws) :
    (vs.foldl scaleFit s).hints = (ws.foldl scaleFit s).hints := by
  by_cases hne : vs = []
  · subst hne
    rw [List.nil_perm.1 h]
  · obtain ⟨m, M, h1, h2, h3, h4⟩ := C23_fit s hs [vs] (by simpa using hne)
    obtain ⟨m', M', h1', h2', h3', h4'⟩ := C23_fit s hs [ws]
      (by simp; rintro rfl; exact hne (List.perm_nil.1 h))
    simp only [List.flatten_cons, List.flatten_nil, List.append_nil, List.foldl_cons, List.foldl_nil] at *
    rw [h1, h1']
    have a1 : m = m' := le_antisymm (h4 m' (h.mem_iff.2 h2')).1 (h4' m (h.mem_iff.1 h2)).1
    have a2 : M = M' := le_antisymm (h4' M (h.mem_iff.1 h3)).2 (h4 M' (h.mem_iff.2 h3')).2
    rw [a1, a2]

/-- C23: explicit limits are never overridden; automatic limits are the extreme values, less and plus the
padding. -/
theorem C23_limits (s : Scale) (hs : s.hints = {}) (vs : List ℝ) (hne : vs ≠ []) :
    (∀ a lo, s.min = some lo → scaleMin a (vs.foldl scaleFit s) = lo) ∧
    (∀ a hi, s.max = some hi → scaleMax a (vs.foldl scaleFit s) = hi) ∧
    (s.min = none → ∃ m ∈ vs, (∀ v ∈ vs, m ≤ v) ∧ scaleMin .exact (vs.foldl scaleFit s) = m - s.padding) ∧
    (s.max = none → ∃ m ∈ vs, (∀ v ∈ vs, v ≤ m) ∧ scaleMax .exact (vs.foldl scaleFit s) = m + s.padding) := by
  have hsame : ∀ (vs : List ℝ) (s : Scale), (vs.foldl scaleFit s).min = s.min ∧
      (vs.foldl scaleFit s).max = s.max ∧ (vs.foldl scaleFit s).padding = s.padding := by
    intro vs
    induction vs with
    | nil => intro s; exact ⟨rfl, rfl, rfl⟩
    | cons v vs ih => intro s; exact ih (scaleFit s v)
  obtain ⟨e1, e2, e3⟩ := hsame vs s
  obtain ⟨m, M, h1, h2, h3, h4⟩ := C23_fit s hs [vs] (by simpa using hne)
  simp only [List.flatten_cons, List.flatten_nil, List.append_nil, List.foldl_cons, List.foldl_nil] at h1 h2 h3 h4
  refine ⟨?_, ?_, ?_, ?_⟩
  · intro a lo h; simp [scaleMin, e1, h]
  · intro a hi h; simp [scaleMax, e2, h]
  · intro h; exact ⟨m, h2, fun v hv => (h4 v hv).1, by simp [scaleMin, e1, h, h1, e3]⟩
  · intro h; exact ⟨M, h3, fun v hv => (h4 v hv).2, by simp [scaleMax, e2, h, h1, e3]⟩

/-- C23: in exact arithmetic every fitted value is drawn inside the plot of an automatic linear scale. -/
theorem C23_covers_partial (s : Scale) (hk : s.kind = .linear) (hs : s.hints = {}) (hmin : s.min = none)
    (hmax : s.max = none) (hp : 0 ≤ s.padding) (vs : List ℝ) (v w : ℝ) (hv : v ∈ vs) (hw : w ∈ vs) (hvw : v ≠ w) :
    ∀ x ∈ vs, Inside (scaleTranslate .exact (vs.foldl scaleFit s) x) := by
  have hkind : ∀ (vs : List ℝ) (s : Scale), (vs.foldl scaleFit s).kind = s.kind := by
    intro vs
    induction vs with
    | nil => intro s; rfl
    | cons v vs ih => intro s; exact ih (scaleFit s v)
  obtain ⟨_, _, h3, h4⟩ := C23_limits s hs vs (List.ne_nil_of_mem hv)
  obtain ⟨m, hm, hm', e1⟩ := h3 hmin
  obtain ⟨M, hM, hM', e2⟩ := h4 hmax
  intro x hx
  have hlt : m < M := by
    rcases lt_or_gt_of_ne hvw with h | h
    · exact (hm' v hv).trans_lt (h.trans_le (hM' w hw))
    · exact (hm' w hw).trans_lt (h.trans_le (hM' v hv))
  have hmx := hm' x hx
  have hMx := hM' x hx
  refine (C20_linear_any_rounding .exact Arith.exact_good _ (by rw [hkind, hk]) ?_).2.2.2 x ?_ ?_
  · rw [e1, e2]; simp; linarith
  · rw [e1]; linarith
  · rw [e2]; linarith

/-- C23 (violated by the code): automatic limits pass through single precision.  If rounding to float moves the
smallest value up, that value is drawn outside the plot. -/
theorem C23_float_limit_outside (f : ℝ → ℝ) (s : Scale) (hk : s.kind = .linear) (hi : s.inverted = false)
    (hmin : s.min = none) (hp : s.padding = 0) (m : ℝ) (hm : s.hints.minValue = some m) (hf : m < f m)
    (hlt : scaleMin ⟨id, f⟩ s < scaleMax ⟨id, f⟩ s) :
    ∃ p, scaleTranslate ⟨id, f⟩ s m = some p ∧ p < 0 := by
  have hpos : 0 < scaleMax ⟨id, f⟩ s - scaleMin ⟨id, f⟩ s := by linarith
  have e : scaleMin ⟨id, f⟩ s = f m := by simp [scaleMin, hmin, hm, hp]
  refine ⟨(m - scaleMin ⟨id, f⟩ s) / (scaleMax ⟨id, f⟩ s - scaleMin ⟨id, f⟩ s), ?_, ?_⟩
  · simp [scaleTranslate, hk, translateLinear, hpos.ne', hi]
  · apply div_neg_of_neg_of_pos _ hpos
    rw [e]; linarith

/-- Rounding to single precision in the binade [1, 2). -/
noncomputable def float32In12 (x : ℝ) : ℝ := ⌊x * 2 ^ 23 + 1 / 2⌋ / 2 ^ 23

example : ∃ m : ℝ, 1 ≤ m ∧ m < 2 ∧ m < float32In12 m := by
  refine ⟨1 + 3 / 4 / 2 ^ 23, by norm_num, by norm_num, ?_⟩
  have : ⌊(1 + 3 / 4 / 2 ^ 23 : ℝ) * 2 ^ 23 + 1 / 2⌋ = 2 ^ 23 + 1 := by
    rw [Int.floor_eq_iff]; norm_num
  unfold float32In12
  rw [this]; norm_num

/-- C23 (violated by the code): one value that is not a number (an empty text, `-`), if it comes first, makes both
limits not-a-number, whatever follows. -/
theorem C23_nan_sticks (vs : List (Option ℝ)) :
    (none :: vs).foldl (fitHints gtNaN) {} = ⟨some none, some none⟩ := by
  have h0 : fitHints gtNaN ({} : LimitHints (Option ℝ)) none = ⟨some none, some none⟩ := by
    simp [fitHints]
  rw [List.foldl_cons, h0]
  induction vs with
  | nil => rfl
  | cons v vs ih =>
    have : fitHints gtNaN (⟨some none, some none⟩ : LimitHints (Option ℝ)) v = ⟨some none, some none⟩ := by
      cases v <;> simp [fitHints, gtNaN]
    rw [List.foldl_cons, this]
    exact ih

/-- C23: without any data, the automatic limits are 0 and 1; configured limits are used as they are. -/
theorem C23_no_data (a : Arith) (s : Scale) (hs : s.hints = {}) :
    (s.min = none → scaleMin a s = 0) ∧ (s.max = none → scaleMax a s = 1) ∧
    (∀ m, s.min = some m → scaleMin a s = m) ∧ (∀ m, s.max = some m → scaleMax a s = m) := by
  refine ⟨?_, ?_, ?_, ?_⟩ <;> intros <;> simp_all [scaleMin, scaleMax]

/-- C22: a category number with decimals belongs to the category of its whole part. -/
theorem C22_fraction_ignored (a : Arith) (s : Scale) (hk : s.kind = .categorical) (i : Nat) (f : ℝ) (h0 : 0 ≤ f) (h1 : f < 1) :
    scaleTranslate a s (i + f) = scaleTranslate a s i := by
  have e1 : ⌊(i : ℝ) + f⌋₊ = i := by
    rw [Nat.floor_eq_iff (by positivity)]; constructor <;> linarith
  simp only [scaleTranslate, hk, e1, Nat.floor_natCast]

end Clip
