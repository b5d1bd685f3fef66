import Verif.Lemmas.Options
set_option linter.unusedSimpArgs false
/-! Which options are accepted. -/
namespace Clip
open Commands Settings Pictures Drawing Options
variable {σ α β : Type}

/-- The handler succeeds exactly on these arguments, in any state. -/
def Accepts (h : Handler σ Fail) (A : List Expr → Prop) : Prop := ∀ args s, (∃ s', h args s = (s', none)) ↔ A args

/-- Two tables, entry by entry. -/
def Match (opts : List (String × Handler σ Fail)) (t : Takes) : Prop :=
  List.Forall₂ (fun p q => p.1 = q.1 ∧ Accepts p.2 q.2) opts t

theorem match_cons {n : String} {h : Handler σ Fail} {A : List Expr → Prop} {l : List (String × Handler σ Fail)} {t : Takes}
    (hh : Accepts h A) (hl : Match l t) : Match ((n, h) :: l) ((n, A) :: t) := .cons ⟨rfl, hh⟩ hl

theorem match_nil : Match ([] : List (String × Handler σ Fail)) [] := .nil

theorem match_append {l₁ l₂ : List (String × Handler σ Fail)} {t₁ t₂ : Takes} (h₁ : Match l₁ t₁) (h₂ : Match l₂ t₂) :
    Match (l₁ ++ l₂) (t₁ ++ t₂) := List.rel_append h₁ h₂

theorem accepts_part {g : σ → α} {put : σ → α → σ} {h : Handler α Fail} {A : List Expr → Prop} (hh : Accepts h A) :
    Accepts (onPart g put h) A := by
  intro args s
  rw [← hh args (g s)]
  constructor
  · rintro ⟨s', he⟩
    obtain ⟨v, hv, _⟩ := onPart_ok.1 he
    exact ⟨v, hv⟩
  · rintro ⟨v, hv⟩
    exact ⟨put s v, onPart_ok.2 ⟨v, hv, rfl⟩⟩

theorem match_lift {g : σ → α} {put : σ → α → σ} {l : List (String × Handler α Fail)} {t : Takes} (h : Match l t) :
    Match (liftOpts g put l) t := by
  unfold liftOpts Match
  rw [List.forall₂_map_left_iff]
  exact h.imp fun p q hpq => ⟨hpq.1, accepts_part hpq.2⟩

theorem accepts_field {read : List Expr → σ → Except Fail α} {put : σ → α → σ} {A : List Expr → Prop}
    (h : ∀ args s, (∃ v, read args s = .ok v) ↔ A args) : Accepts (field read put) A := by
  intro args s
  rw [← h args s]
  constructor
  · rintro ⟨s', he⟩
    obtain ⟨v, hv, _⟩ := field_ok.1 he
    exact ⟨v, hv⟩
  · rintro ⟨v, hv⟩
    exact ⟨put s v, field_ok.2 ⟨v, hv, rfl⟩⟩

theorem accepts_one {h : Handler σ Fail} {A : List Expr → Prop} (hh : Accepts h A) : Accepts (callAll [h]) A := by
  intro args s
  rw [← hh args s]
  constructor
  · rintro ⟨s', he⟩
    obtain ⟨v, hv, _⟩ := callAll_cons.1 he
    exact ⟨v, hv⟩
  · rintro ⟨v, hv⟩
    exact ⟨v, callAll_cons.2 ⟨v, hv, rfl⟩⟩

theorem accepts_cons {h h' : Handler σ Fail} {hs : List (Handler σ Fail)} {A : List Expr → Prop} (hh : Accepts h A)
    (hr : Accepts (callAll (h' :: hs)) A) : Accepts (callAll (h :: h' :: hs)) A := by
  intro args s
  constructor
  · rintro ⟨s', he⟩
    obtain ⟨v, hv, _⟩ := callAll_cons.1 he
    exact (hh args s).1 ⟨v, hv⟩
  · intro ha
    obtain ⟨s₁, h1⟩ := (hh args s).2 ha
    obtain ⟨s₂, h2⟩ := (hr args s₁).2 ha
    exact ⟨s₂, callAll_cons.2 ⟨s₁, h1, h2⟩⟩

theorem accepted_iff {opts : List (String × Handler σ Fail)} {t : Takes} (hm : Match opts t)
    (hn : (t.map (·.1)).Nodup) (cmds : List Expr) (s : σ) :
    (∃ s', Executed (optTable opts) cmds s s') ↔ Acceptable t cmds := by
  rw [executed_iff_all (ok := fun n args => ∃ m A, (m, A) ∈ t ∧ n = String.toList m ∧ A args)]
  · unfold Acceptable
    refine forall₂_congr fun c _ => ?_
    constructor
    · rintro ⟨n, hn, m, A, hA, rfl, h⟩
      exact ⟨m, A, hA, hn, h⟩
    · rintro ⟨m, A, hA, hn, h⟩
      exact ⟨_, hn, m, A, hA, rfl, h⟩
  · intro n h args s s₁ hf hr
    obtain ⟨p, hp, rfl, rfl⟩ := optTable_some hf
    obtain ⟨i, hi, rfl⟩ := List.mem_iff_getElem.1 hp
    have hlen := hm.length_eq
    have := hm.get hi (hlen ▸ hi)
    refine ⟨t[i].1, t[i].2, List.getElem_mem _, ?_, ?_⟩
    · exact congrArg String.toList this.1
    · exact (this.2 args s).1 ⟨s₁, hr⟩
  · rintro n args s ⟨m, A, hA, rfl, h⟩
    obtain ⟨i, hi, ht⟩ := List.mem_iff_getElem.1 hA
    have hlen := hm.length_eq
    have hi' : i < opts.length := by rw [hlen]; exact hi
    have hg := hm.get hi' hi
    rw [List.get_eq_getElem, List.get_eq_getElem] at hg
    cases hf : optTable opts m.toList with
    | none =>
      have := optTable_none.1 hf opts[i] (List.getElem_mem _)
      simp only [ht] at hg
      exact absurd (by rw [hg.1]) this
    | some hd =>
      obtain ⟨p, hp, hpn, rfl⟩ := optTable_some hf
      obtain ⟨j, hj, rfl⟩ := List.mem_iff_getElem.1 hp
      have hj' : j < t.length := by rw [← hlen]; exact hj
      have hgj := hm.get hj hj'
      rw [List.get_eq_getElem, List.get_eq_getElem] at hgj
      have hji : j = i := by
        have e1 : (t.map (·.1))[j]'(by simpa using hj') = (t.map (·.1))[i]'(by simpa using hi) := by
          simp only [List.getElem_map, ht]
          rw [← hgj.1]
          exact String.toList_inj.1 hpn
        exact (List.Nodup.getElem_inj_iff hn).1 e1
      subst hji
      simp only [ht] at hg
      obtain ⟨s₁, hs⟩ := (hg.2 args s).2 h
      exact ⟨_, s₁, rfl, hs⟩

/-! ## Readers -/

variable {φ : Type} {P : PlotEnv φ} {E : ReadEnv}

theorem acc_color (hp : E.palette ≠ []) : Accepts (colorVar E) (Has (IsColor E)) :=
  accepts_field fun args _ => exists_congr fun _ => readColor_ok hp _ args _

theorem acc_size : Accepts (sizeVar E) (Has (IsSize E)) := accepts_field fun _ _ => exists_congr fun _ => readSize_ok

theorem acc_number : Accepts (floatVar E) (Has (IsNumber E)) := accepts_field fun _ _ => exists_congr fun _ => readFloat_ok

theorem acc_measure : Accepts (measureVar P) (Has (IsMeasure P)) :=
  accepts_field fun _ _ => exists_congr fun _ => readMeasure_ok

theorem acc_text {put : σ → Str → σ} : Accepts (field (fun args _ => readString args) put) (Has IsText) :=
  accepts_field fun _ _ => exists_congr fun _ => readString_ok

theorem acc_marker {put : σ → Marker → σ} :
    Accepts (field (fun args _ => readMarker E args) put) (Has fun args m => readMarker E args = .ok m) :=
  accepts_field fun _ _ => Iff.rfl

theorem acc_markers {put : σ → List Marker → σ} :
    Accepts (field (fun args _ => readMarkers E args) put) (Has fun args m => readMarkers E args = .ok m) :=
  accepts_field fun _ _ => Iff.rfl

theorem acc_colorMap {put : σ → _ → σ} :
    Accepts (field (fun args _ => readColorMap E args) put) (Has fun args m => readColorMap E args = .ok m) :=
  accepts_field fun _ _ => Iff.rfl

theorem acc_sizeMap {put : σ → _ → σ} :
    Accepts (field (fun args _ => readSizeMap E args) put) (Has fun args m => readSizeMap E args = .ok m) :=
  accepts_field fun _ _ => Iff.rfl

theorem acc_placement {put : σ → TickSpec → σ} :
    Accepts (field (fun args _ => scaleConfigureLayout P.stod args) put) (Has (IsPlacement P)) :=
  accepts_field fun _ _ => ⟨fun ⟨v, h⟩ => ⟨some v, v, (C92_placement _ _ _).1 h, rfl⟩,
    fun ⟨_, v, h, _⟩ => ⟨v, (C92_placement _ _ _).2 h⟩⟩

theorem acc_font {put : σ → φ → σ} : Accepts (field (fun args _ => readFont P.text args) put) (Does (AddFont P)) :=
  accepts_field fun args _ => ⟨fun ⟨v, h⟩ a => by
    obtain ⟨t, ht, hf⟩ := plotFont_ok.1 h
    exact ⟨_, t, v, ht, hf, rfl⟩, fun h => by
    obtain ⟨b, t, f, ht, hf, _⟩ := h []
    exact ⟨f, plotFont_ok.2 ⟨t, ht, hf⟩⟩⟩

theorem acc_any {f : List Expr → σ → σ} : Accepts (fun args s => (f args s, none)) anything :=
  fun args s => ⟨fun _ => trivial, fun _ => ⟨_, rfl⟩⟩

theorem acc_direction {put : σ → Direction → σ} : Accepts (field (fun args _ => readDirection args) put)
    (Has (IsOneOf [("horizontal", Direction.horizontal), ("vertical", .vertical)])) :=
  accepts_field fun args _ => by
    constructor
    · rintro ⟨v, hv⟩
      obtain ⟨w, rest, hw, hv⟩ := (C80_enum _ _ _).1 hv
      obtain ⟨x, rfl, hx⟩ := direction_words w v hv
      exact ⟨v, x, ⟨rest, hw⟩, hx⟩
    · rintro ⟨v, w, ⟨rest, hw⟩, hv⟩
      refine ⟨v, (C80_enum _ _ _).2 ⟨_, rest, hw, ?_⟩⟩
      simp only [List.mem_cons, Prod.mk.injEq, List.not_mem_nil, or_false] at hv
      rcases hv with ⟨rfl, rfl⟩ | ⟨rfl, rfl⟩
      · rfl
      · rw [if_neg (by decide), if_pos rfl]

theorem acc_texts : Accepts (stringsVar P) (Does (Texts P)) := by
  intro args s
  have key : ∀ s, (∃ s', stringsVar P args s = (s', none)) ↔ ∃ b, Texts P args s b := by
    intro s
    unfold stringsVar
    constructor
    · rintro ⟨s', h⟩
      split at h
      · rename_i vs hvs; exact ⟨vs, loadStrings_ok.1 hvs⟩
      · cases h
    · rintro ⟨b, hb⟩
      rw [loadStrings_ok.2 hb]
      exact ⟨b, rfl⟩
  rw [key]
  constructor
  · rintro ⟨b, hb⟩ a
    rcases hb with ⟨hc, h⟩ | ⟨hc, vs, h, _⟩
    · exact ⟨b, .inl ⟨hc, h⟩⟩
    · exact ⟨_, .inr ⟨hc, vs, h, rfl⟩⟩
  · intro h; exact h s

theorem acc_data : Accepts (loadSimple P.readFile) (Does (AddData P)) := by
  intro args s
  constructor
  · rintro ⟨s', h⟩ a
    obtain ⟨vs, hvs, _⟩ := loadSimple_ok.1 h
    exact ⟨_, vs, hvs, rfl⟩
  · intro h
    obtain ⟨b, hb⟩ := h s
    exact ⟨b, loadSimple_ok.2 hb⟩

theorem acc_lengths : Accepts (loadMeasures P.stod P.readFile) (Does (AddLengths P)) := by
  intro args s
  constructor
  · rintro ⟨s', h⟩ a
    obtain ⟨es, rest, vs, ns, h1, h2, h3, _⟩ := loadMeasures_ok.1 h
    exact ⟨_, es, rest, vs, ns, h1, h2, h3, rfl⟩
  · intro h
    obtain ⟨b, hb⟩ := h s
    exact ⟨b, loadMeasures_ok.2 hb⟩

theorem acc_polys : Accepts (loadPolys P) (Does (AddPolys P)) := by
  intro args s
  constructor
  · rintro ⟨s', h⟩ a
    obtain ⟨k, f, as, rest, ps, h1, h2, h3, _⟩ := eff_polys _ _ _ h
    exact ⟨_, k, f, as, rest, ps, h1, h2, h3, rfl⟩
  · intro h
    obtain ⟨b, k, f, as, rest, ps, rfl, hk, hg, rfl⟩ := h s
    rcases hk with rfl | rfl <;> exact ⟨s ++ ps, by
      simp only [loadPolys, if_true, Expr.isValue, Expr.getValue, hg, failOf]⟩

theorem acc_strokeColor (hp : E.palette ≠ []) : Accepts (Clip.strokeColor E) (Has (IsColor E)) :=
  accepts_field fun args _ => exists_congr fun _ => readColor_ok hp _ args _

theorem acc_strokeWidth : Accepts (Clip.strokeWidth E) (Has (IsSize E)) :=
  accepts_field fun _ _ => exists_congr fun _ => readSize_ok

theorem acc_fillColor (hp : E.palette ≠ []) : Accepts (readFillStyleSolid E) (Has (IsColor E)) :=
  accepts_field fun args _ => exists_congr fun _ => readColor_ok hp _ args _

theorem acc_fillStyle (hp : E.palette ≠ []) : Accepts (readFillStyle E) (Does (Options.fillStyle E)) := by
  intro args s
  constructor
  · rintro ⟨s', h⟩ a
    have hm := (C79_fill_partial E hp args s s').1 h
    clear h
    cases hm with
    | none h => exact ⟨_, .none h⟩
    | color h => exact ⟨_, .color h⟩
    | hatch h1 h2 h3 h4 h5 h6 h7 => exact ⟨_, .hatch h1 h2 h3 h4 h5 h6 h7⟩
  · intro h
    obtain ⟨b, hb⟩ := h s
    exact ⟨b, (C79_fill_partial E hp args s b).2 hb⟩

theorem acc_strokeStyle : Accepts (readStrokeStyle E) (Does (Options.strokeStyle E)) := by
  intro args s
  have back : ∀ k t, StrokeStyleMeans E 1 k.offset.value args k.style t → ∃ k', readStrokeStyle E args k = (k', none) ∧ k'.style = t :=
    fun k t h => (C79_stroke_partial E args k t).2 h
  constructor
  · rintro ⟨s', h⟩ a
    have hm := (C79_stroke_partial E args s _).1 ⟨s', h, rfl⟩
    have : ∃ t, StrokeStyleMeans E 1 a.offset.value args a.style t := by
      generalize s'.style = t at hm
      generalize s.style = u at hm
      cases hm with
      | none h => exact ⟨_, .none h⟩
      | solid h => exact ⟨_, .solid h⟩
      | @dash cmds _ offset pattern h1 h2 h3 h4 =>
        by_cases hl : lastArgs "offset".toList cmds = none
        · refine ⟨_, .dash h1 h2 h3 (offset := a.offset.value) ?_⟩
          unfold Final; rw [hl]
        · refine ⟨_, .dash h1 h2 h3 (offset := offset) ?_⟩
          unfold Final at h4 ⊢
          cases hl' : lastArgs "offset".toList cmds with
          | none => exact absurd hl' hl
          | some as => rw [hl'] at h4; exact h4
    obtain ⟨t, ht⟩ := this
    obtain ⟨k', hk, hs⟩ := back a t ht
    exact ⟨k', eff_strokeStyle _ _ _ hk⟩
  · intro h
    obtain ⟨b, hb⟩ := h s
    obtain ⟨k', hk, _⟩ := back s b.style hb.1
    exact ⟨k', hk⟩

theorem acc_limits : Accepts (limitPair E) (Does (scaleLimits E)) := by
  intro args s
  constructor
  · rintro ⟨s', h⟩ a
    obtain ⟨x, y, lo, hi, h1, h2, h3, _⟩ := eff_limits _ _ _ h
    exact ⟨_, x, y, lo, hi, h1, h2, h3, rfl⟩
  · intro h
    obtain ⟨b, x, y, lo, hi, h1, h2, h3, rfl⟩ := h s
    have := (C80_pair E args (s.min, s.max) _).2 ⟨x, y, lo, hi, h1, h2, h3, rfl⟩
    refine ⟨{ s with min := some lo, max := some hi }, ?_⟩
    unfold limitPair
    rw [this]

theorem acc_minimum : Accepts (limitMin E) (Has (IsNumber E)) := accepts_field fun _ _ => exists_congr fun _ => readFloat_ok

theorem acc_maximum : Accepts (limitMax E) (Has (IsNumber E)) := accepts_field fun _ _ => exists_congr fun _ => readFloat_ok

theorem acc_pad : Accepts (scalePadding E) (Has (IsNumber E)) := accepts_field fun _ _ => exists_congr fun _ => readFloat_ok

theorem word_eq {e : Expr} {w : String} (h : IsWord e w) (v : String) : isWord [e] v.toList = decide (w = v) := by
  have hb : (w.toList == v.toList) = decide (w = v) := by
    rw [Bool.eq_iff_iff]; simp [String.toList_inj]
  rcases h with rfl | rfl <;> simp [isWord, Expr.isValue, Expr.getValue, hb]

theorem word_call {e : Expr} {w : String} (h : IsWord e w) (v : Str) : isCall [e] v = none := by
  rcases h with rfl | rfl <;> rfl

theorem list_word {l : List Expr} {v : Str} : isWord [.list l] v = false := rfl

theorem call_eq {k : Expr} {w : String} (h : IsWord k w) (as : List Expr) (v : String) :
    isCall [.list (k :: as)] v.toList = if w = v then some as else none := by
  rcases h with rfl | rfl <;> simp [isCall, Expr.isValue, Expr.getValue, String.toList_inj]

theorem scaleWords_run {args : List Expr} {s s' : Scale} (h : ScaleWords P args s s') :
    scaleConfigureKind P.stod P.readFile args s = (s', none) := by
  have e12 : (0.5 : ℝ) = 1 / 2 := by norm_num
  induction h with
  | nil s => rfl
  | @cons e es s s₁ s' hw _ ih =>
    rw [← ih, scaleConfigureKind, e12]
    cases hw with
    | linear h => rw [word_eq h, if_pos (by decide)]
    | log h =>
      rcases h with h | h <;> rw [word_eq h, if_neg (by decide), word_eq h, word_eq h, if_pos (by decide)]
    | logBase h hb =>
      rcases h with h | h <;> rw [list_word, if_neg (by decide), list_word, list_word, if_neg (by decide), call_eq h, call_eq h] <;>
        simp [hb]
    | invert h =>
      rcases h with h | h <;> rw [word_eq h, if_neg (by decide), word_eq h, word_eq h, if_neg (by decide), word_call h, word_call h,
        word_eq h, word_eq h] <;> simp
    | categorical h =>
      rw [word_eq h, if_neg (by decide), word_eq h, word_eq h, if_neg (by decide), word_call h, word_call h,
        word_eq h, word_eq h, word_eq h]; simp
    | categories h ht =>
      rw [list_word, if_neg (by decide), list_word, list_word, if_neg (by decide), call_eq h, call_eq h, list_word, list_word,
        list_word, call_eq h]
      simp [setCategories, loadStrings_ok.2 ht]

theorem acc_scale : Accepts (fun args s => scaleConfigureKind P.stod P.readFile args s) (Does (ScaleWords P)) := by
  intro args s
  constructor
  · rintro ⟨s', h⟩ a
    have hw : ScaleWords P args s s' := eff_scale _ _ _ h
    clear h
    induction hw generalizing a with
    | nil s => exact ⟨a, .nil _⟩
    | @cons e es s s₁ s' hw _ ih =>
      have : ∃ a', ScaleWord P e a a' := by
        cases hw with
        | linear h => exact ⟨_, .linear h⟩
        | log h => exact ⟨_, .log h⟩
        | logBase h hb => exact ⟨_, .logBase h hb⟩
        | invert h => exact ⟨_, .invert h⟩
        | categorical h => exact ⟨_, .categorical h⟩
        | @categories k args _ cats h ht =>
          rcases ht with ⟨hc, ht⟩ | ⟨hc, vs, hv, _⟩
          · exact ⟨_, .categories h (.inl ⟨hc, ht⟩)⟩
          · exact ⟨_, .categories h (.inr ⟨hc, vs, hv, rfl⟩)⟩
      obtain ⟨a', ha⟩ := this
      obtain ⟨b, hb⟩ := ih a'
      exact ⟨b, .cons ha hb⟩
  · intro h
    obtain ⟨b, hb⟩ := h s
    exact ⟨b, scaleWords_run hb⟩

end Clip
