import Verif.Spec.AxisValues
import Verif.Props.AxisDraw
import Verif.Props.Ticks
set_option linter.unusedSimpArgs false
/-!
# C91: the labels of an axis name the values at which they stand
-/
namespace Clip
open AxisSpec ScaleSpec
variable {φ : Type} {P : PlotEnv φ}

theorem Returns.invariant {σ ρ : Type} {step : σ → σ ⊕ ρ} (I : σ → Prop) (J : ρ → Prop)
    (h1 : ∀ s s', I s → step s = .inl s' → I s') (h2 : ∀ s r, I s → step s = .inr r → J r) {s : σ} {r : ρ} (hs : I s)
    (h : Returns step s r) : J r := by
  obtain ⟨n, hn⟩ := h
  induction n generalizing s with
  | zero => simp [runFor] at hn
  | succ n ih =>
    rw [runFor] at hn
    split at hn
    · rename_i s' he
      exact ih (h1 _ _ hs he) hn
    · rename_i r' he
      cases hn
      exact h2 _ _ hs he

/-- A layout under construction. -/
def TicksFor (toS : ℝ → Str) (fmt : Formatter) (s : Scale) (idx : Nat) (l : ScaleLayout) : Prop :=
  ∃ vs : List ℝ, vs.length = idx ∧ TicksAt toS fmt (scaleTranslate .exact s) vs l

theorem ticksFor_push {toS : ℝ → Str} {fmt : Formatter} {s : Scale} {idx : Nat} {l : ScaleLayout}
    (h : TicksFor toS fmt s idx l) (v : ℝ) :
    TicksFor toS fmt s (idx + 1) (l.push (scaleTranslate .exact s v) (fmt idx (toS v))) := by
  obtain ⟨vs, hl, h1, h2⟩ := h
  refine ⟨vs ++ [v], by simp [hl], ?_, ?_⟩
  · simp [ScaleLayout.push, h1]
  · simp [ScaleLayout.push, h2, List.mapIdx_append, hl]

theorem ticksFor_nil {toS : ℝ → Str} {fmt : Formatter} {s : Scale} : TicksFor toS fmt s 0 {} := ⟨[], rfl, rfl, rfl⟩

theorem tickLoop_values {toS : ℝ → Str} {fmt : Formatter} {s : Scale} {step e : ℝ} {skip : Bool}
    {start : (ScaleLayout × LayoutRc) ⊕ (ℝ × Nat × ScaleLayout)} {r : ScaleLayout × LayoutRc}
    (hs : (∃ rc, start = .inl ({}, rc)) ∨ ∃ v, start = .inr (v, 0, {}))
    (h : LayoutReturns (tickStep .exact toS s fmt step e skip) start r) : ∃ n, TicksFor toS fmt s n r.1 := by
  rcases hs with ⟨rc, rfl⟩ | ⟨v, rfl⟩
  · unfold LayoutReturns at h
    rw [h]
    exact ⟨0, ticksFor_nil⟩
  · unfold LayoutReturns at h
    refine Returns.invariant (fun st => TicksFor toS fmt s st.2.1 st.2.2) (fun r => ∃ n, TicksFor toS fmt s n r.1) ?_ ?_ ?_ h
    · rintro ⟨v, i, l⟩ ⟨v', i', l'⟩ hi he
      unfold tickStep at he
      dsimp only at he hi
      split at he
      · split at he
        · cases he; exact hi
        · cases he; exact ticksFor_push hi _
      · cases he
    · rintro ⟨v, i, l⟩ r hi he
      unfold tickStep at he
      dsimp only at he hi
      split at he
      · split at he <;> cases he
      · cases he; exact ⟨_, hi⟩
    · exact ticksFor_nil

theorem expLoop_values {toS : ℝ → Str} {nan : Str} {fmt : Formatter} {s : Scale} {base : ℝ} {r : ScaleLayout × LayoutRc}
    (h : LayoutExponential .exact toS nan s fmt {} base r) : ∃ n, TicksFor toS fmt s n r.1 := by
  unfold LayoutExponential at h
  refine Returns.invariant (fun st => cPow .exact base st.1 = .nan ∨ TicksFor toS fmt s st.2.1 st.2.2)
    (fun r => ∃ n, TicksFor toS fmt s n r.1) ?_ ?_ (.inr ticksFor_nil) h
  · rintro ⟨e, i, l⟩ ⟨e', i', l'⟩ hi he
    unfold expStep at he
    dsimp only at he hi
    rcases hi with hi | hi
    · rw [hi, if_neg (by simp [Ext.below]), if_neg (by simp [Ext.above])] at he
      cases he
      exact .inl ((cPow_succ base e).2 hi)
    · split at he
      · cases he; exact .inr hi
      · split at he
        · cases he
        · rename_i c1 c2
          cases hv : cPow .exact base e with
          | fin v =>
            rw [hv] at he
            cases he; exact .inr (ticksFor_push hi _)
          | nan =>
            cases he
            exact .inl ((cPow_succ base e).2 hv)
          | posInf => rw [hv] at c2; exact absurd trivial c2
          | negInf => rw [hv] at c1; exact absurd trivial c1
  · rintro ⟨e, i, l⟩ r hi he
    unfold expStep at he
    dsimp only at he hi
    rcases hi with hi | hi
    · rw [hi, if_neg (by simp [Ext.below]), if_neg (by simp [Ext.above])] at he
      cases he
    · split at he
      · cases he
      · split at he
        · cases he; exact ⟨_, hi⟩
        · cases he

theorem layout_values {spec : TickSpec} {s : Scale} {fmt : Formatter} (hs : ValuePlacement s spec)
    {r : ScaleLayout × LayoutRc} (h : RunTicks P.toS spec s fmt {} r) :
    ∃ n, TicksFor (fun v => P.toS (some v)) fmt s n r.1 := by
  unfold RunTicks at h
  cases spec with
  | interval st b e =>
    refine tickLoop_values ?_ h
    unfold layoutIntervalStart
    dsimp only
    split
    · exact .inl ⟨_, rfl⟩
    · exact .inr ⟨_, rfl⟩
  | alignat st al =>
    refine tickLoop_values ?_ h
    unfold layoutAlignatStart
    dsimp only
    split
    · exact .inl ⟨_, rfl⟩
    · split
      · exact .inl ⟨_, rfl⟩
      · exact .inr ⟨_, rfl⟩
  | align st =>
    refine tickLoop_values ?_ h
    unfold layoutAlignStart
    dsimp only
    split
    · exact .inl ⟨_, rfl⟩
    · split
      · exact .inl ⟨_, rfl⟩
      · exact .inr ⟨_, rfl⟩
  | linear st =>
    refine tickLoop_values ?_ h
    unfold layoutLinearStart
    split
    · exact .inl ⟨_, rfl⟩
    · exact .inr ⟨_, rfl⟩
  | exponential b => exact expLoop_values h
  | none => dsimp only at h; rw [h]; exact ⟨0, ticksFor_nil⟩
  | subdivide n =>
    obtain ⟨hn, hk, hlt⟩ := hs
    dsimp only at h
    obtain ⟨vs, h1, _, h2, h3⟩ := C24_subdivide P.toS s hk hlt fmt ⌊n⌋₊ (Nat.le_floor (by exact_mod_cast hn))
    rw [h.2]
    exact ⟨_, vs, rfl, h2, h3⟩
  | expSteps _ _ => exact absurd hs (by simp [ValuePlacement])
  | categorical => exact absurd hs (by simp [ValuePlacement])
  | bounds => exact absurd hs (by simp [ValuePlacement])

theorem goesTo_number {s : Scale} (hk : s.kind ≠ .categorical) {v p : ℝ} :
    GoesTo P s (oneNumber v) p ↔ scaleTranslate .exact s v = some p := by
  unfold GoesTo translateBuf translatevBuf oneNumber
  have e : firstNonNumber [] [(true, 0)] = some none := rfl
  have e2 : databufToNumbers P.parse ⟨[(true, 0)], [some v], []⟩ = some [some v] := rfl
  cases h : s.kind with
  | categorical => exact absurd h hk
  | linear =>
    dsimp only
    rw [e]
    dsimp only
    rw [e2]
    dsimp only [List.map, translateValue]
    cases hv : scaleTranslate .exact s v <;> simp [hv]
  | logarithmic =>
    dsimp only
    rw [e]
    dsimp only
    rw [e2]
    dsimp only [List.map, translateValue]
    cases hv : scaleTranslate .exact s v <;> simp [hv]

/-- C91: the labels of an axis name the values at which they stand: data with the value of a label go to the place of the
label.  Partial: not for `exponential-steps`, and not for `subdivide` on a logarithmic scale (`C24_exp_steps_labels`,
`C24_subdivide_log_fails`). -/
theorem C91_values_partial (P : PlotEnv φ) (spec : TickSpec) (s : Scale) (hk : s.kind ≠ .categorical)
    (hs : ValuePlacement s spec) (fmt : Formatter) (positions : List ℝ) (texts : List Str)
    (h : Layout P spec s fmt positions texts) : Faithful P s fmt positions texts := by
  obtain ⟨out, rc, h1, h2, rfl⟩ := h
  obtain ⟨n, vs, hn, h3, h4⟩ := layout_values hs h1
  clear hn
  refine ⟨vs, ?_, h4⟩
  dsimp only at h3
  rw [h2] at h3
  clear h4 h2 h1
  induction vs generalizing positions with
  | nil =>
    have : positions = [] := by simpa using h3
    rw [this]; exact .nil
  | cons v vs ih =>
    cases positions with
    | nil => simp at h3
    | cons p ps =>
      simp only [List.map_cons, List.cons.injEq] at h3
      exact .cons ((goesTo_number hk).2 h3.1.symm) (ih ps h3.2)

/-- C91: without a `label-placement`, the labels of an axis name the values at which they stand. -/
theorem C91_values_default (P : PlotEnv φ) (a : AxisDef φ) (hk : a.scale.kind ≠ .categorical)
    (hlt : scaleMin .exact a.scale < scaleMax .exact a.scale) (ha : a.labelPlacement = none) (fmt : Formatter)
    (positions : List ℝ) (texts : List Str) (h : Layout P (labelPlacement a) a.scale fmt positions texts) :
    Faithful P a.scale fmt positions texts := by
  refine C91_values_partial P _ _ hk ?_ fmt _ _ h
  unfold labelPlacement
  rw [ha]
  cases hk' : a.scale.kind with
  | categorical => exact absurd hk' hk
  | logarithmic => exact trivial
  | linear => exact ⟨by norm_num, hk', hlt⟩

theorem foldl_pushes (f : Nat → Option ℝ) (g : Nat → Str) (ns : List Nat) (l : ScaleLayout) :
    ns.foldl (fun l i => l.push (f i) (g i)) l = ⟨l.positions ++ ns.map f, l.labels ++ ns.map g⟩ := by
  induction ns generalizing l with
  | nil => simp
  | cons n ns ih => rw [List.foldl_cons, ih]; simp [ScaleLayout.push]

/-- C91: on a categorical scale there is one label for each category, and it stands where the data of the category go. -/
theorem C91_values_categories (P : PlotEnv φ) (s : Scale) (hk : s.kind = .categorical)
    (hm : s.categoriesMap = buildCategories s.categories 0 fun _ => none) (hd : s.categories.Nodup) (fmt : Formatter)
    (positions : List ℝ) (texts : List Str) (h : Layout P .categorical s fmt positions texts) :
    List.Forall₂ (fun c p => GoesTo P s (oneText c) p) s.categories positions ∧
      texts = s.categories.mapIdx fun i c => fmt i c := by
  obtain ⟨out, rc, h1, h2, rfl⟩ := h
  unfold RunTicks at h1
  dsimp only at h1
  have e := (Prod.mk.inj h1).1
  unfold layoutCategorical at e
  rw [foldl_pushes] at e
  subst e
  simp only [List.nil_append] at h2 ⊢
  constructor
  · rw [List.forall₂_iff_get]
    have hl := congrArg List.length h2
    simp at hl
    refine ⟨hl, ?_⟩
    intro i h1 h2'
    have hp := congrArg (fun l => l[i]?) h2
    simp only [List.getElem?_map, List.getElem?_range h1, Option.map_some, List.getElem?_eq_getElem h2', Option.some.injEq] at hp
    simp only [List.get_eq_getElem]
    unfold GoesTo translateBuf translatevBuf oneText
    rw [hk]
    have e2 : databufToText P.toS ⟨[(false, 0)], [], [s.categories[i]]⟩ = some [s.categories[i]] := rfl
    dsimp only
    rw [e2]
    have e3 : s.categoriesMap s.categories[i] = some i := by
      rw [hm, (C22_category_index _ _).1 i]
      refine ⟨List.getElem?_eq_getElem h1, fun j hij hj => ?_⟩
      obtain ⟨hj1, hj2⟩ := List.getElem?_eq_some_iff.1 hj
      have := (List.Nodup.getElem_inj_iff hd).1 hj2
      omega
    dsimp only [mapCategories]
    rw [e3]
    dsimp only [List.map]
    have e4 : scaleTranslate .exact s (i : ℝ) = some positions[i] := by
      rw [← hp]
      unfold scaleTranslate
      rw [hk]
      simp
    rw [e4]
    rfl
  · apply List.ext_getElem
    · simp
    · intro i h1 h2
      simp at h1
      simp [List.getElem?_eq_getElem h1]

/-- C91, violated by the code: if a category is listed twice, the label of its first mention stands where no data go. -/
theorem C91_duplicate_category (P : PlotEnv φ) (s : Scale) (hk : s.kind = .categorical)
    (hm : s.categoriesMap = buildCategories s.categories 0 fun _ => none) (i j : Nat) (hij : i < j) (c : Str)
    (hi : s.categories[i]? = some c) (hj : s.categories[j]? = some c) (fmt : Formatter)
    (positions : List ℝ) (texts : List Str) (h : Layout P .categorical s fmt positions texts) :
    texts[i]? = some (fmt i c) ∧ ∃ p, positions[i]? = some p ∧ ¬ GoesTo P s (oneText c) p := by
  obtain ⟨out, rc, h1, h2, rfl⟩ := h
  unfold RunTicks at h1
  dsimp only at h1
  have e := (Prod.mk.inj h1).1
  unfold layoutCategorical at e
  rw [foldl_pushes] at e
  subst e
  simp only [List.nil_append] at h2 ⊢
  obtain ⟨hi1, hi2⟩ := List.getElem?_eq_some_iff.1 hi
  obtain ⟨hj1, hj2⟩ := List.getElem?_eq_some_iff.1 hj
  have hl := congrArg List.length h2
  simp at hl
  have hpos : ∀ k (hk : k < s.categories.length), translateCategorical s k = some (positions[k]'(by omega)) := by
    intro k hk
    have hp := congrArg (fun l => l[k]?) h2
    simpa only [List.getElem?_map, List.getElem?_range hk, Option.map_some, List.getElem?_eq_getElem (show k < positions.length by omega),
      Option.some.injEq] using hp
  refine ⟨by simp [hi1, hi2], positions[i]'(by omega), List.getElem?_eq_getElem _, ?_⟩
  intro hg
  obtain ⟨m, hmi, hm1, hm2⟩ : ∃ m, s.categoriesMap c = some m ∧ s.categories[m]? = some c ∧ j ≤ m := by
    rw [hm]
    cases hb : buildCategories s.categories 0 (fun _ => none) c with
    | none => exact absurd (List.mem_of_getElem? hi) ((C22_category_index _ _).2.1 hb)
    | some m =>
      obtain ⟨a1, a2⟩ := ((C22_category_index _ _).1 m).1 hb
      exact ⟨m, rfl, a1, not_lt.1 fun hlt => a2 j hlt hj⟩
  obtain ⟨hm3, _⟩ := List.getElem?_eq_some_iff.1 hm1
  unfold GoesTo translateBuf translatevBuf oneText at hg
  rw [hk] at hg
  have e2 : databufToText P.toS ⟨[(false, 0)], [], [c]⟩ = some [c] := rfl
  dsimp only at hg
  rw [e2] at hg
  dsimp only [mapCategories] at hg
  rw [hmi] at hg
  dsimp only [List.map] at hg
  have e4 : scaleTranslate .exact s (m : ℝ) = translateCategorical s m := by
    unfold scaleTranslate
    rw [hk]
    simp
  rw [e4, hpos m hm3] at hg
  have hg' : positions[m]'(by omega) = positions[i]'(by omega) := by
    have : (Except.ok [positions[m]'(by omega)] : Except Fail (List ℝ)) = .ok [positions[i]'(by omega)] := hg
    simpa using this
  have p1 := hpos m hm3
  have p2 := hpos i hi1
  rw [← hg', ← p1] at p2
  have hn : s.categories.length ≠ 0 := by omega
  have b1 : (m : ℝ) ≤ (s.categories.length : ℝ) - 1 := by
    have : m + 1 ≤ s.categories.length := hm3
    have : ((m + 1 : ℕ) : ℝ) ≤ s.categories.length := by exact_mod_cast this
    push_cast at this; linarith
  have b2 : (i : ℝ) < m := by exact_mod_cast (by omega : i < m)
  have b3 : (0 : ℝ) ≤ i := Nat.cast_nonneg i
  unfold translateCategorical at p2 p1
  simp only [hn, if_false] at p2 p1
  have b4 : (0 : ℝ) ≤ m := Nat.cast_nonneg m
  have b5 : (i : ℝ) ≤ (s.categories.length : ℝ) - 1 := by linarith
  rw [min_eq_left b1, max_eq_right b4] at p2 p1
  rw [min_eq_left b5, max_eq_right b3] at p2
  split at p2
  · rename_i h0
    simp [h0] at p1
  · rename_i h0
    simp only [Option.some.injEq] at p2
    field_simp at p2
    linarith

/-- C91, violated by the code: the title of an axis with `align` `x` is placed by its width and that of one with `align`
`y` by its height, instead of the other way round: the room is that of a vertical or horizontal axis. -/
theorem C91_title_extent (P : PlotEnv φ) (a : AxisDef φ) (dpi x : ℝ) :
    (a.align = .x → (axisTitleSize P dpi a = .ok x ↔
      Room P.text a.titleFonts a.titleFontSize dpi a.titleRotate .left a.title x)) ∧
    (a.align = .y → (axisTitleSize P dpi a = .ok x ↔
      Room P.text a.titleFonts a.titleFontSize dpi a.titleRotate .bottom a.title x)) := by
  constructor <;> intro ha <;> unfold axisTitleSize <;> rw [room_ok] <;>
    cases hm : measureLabel P.text dpi a.titleFonts a.titleFontSize a.title with
    | error f => simp
    | ok b =>
      dsimp only
      have e := rotatedBox_size b a.titleRotate
      rw [ha]
      constructor
      · intro h; cases h; exact ⟨b, rfl, by rw [← e]; rfl⟩
      · rintro ⟨b', h, rfl⟩; cases h; rw [← e]; rfl

/-- A line with a tick at either end. -/
example (P : PlotEnv φ) (a : AxisDef φ) (ha : a.align = .bottom) (ht : a.title = []) (hl : a.labelPlacement = some .none)
    (htk : a.tickPlacement = some (.subdivide 1)) (s : PlotState φ) (hT : Pictures.LevelsOfChars P.text) :
    plotAxis P a s = ({ s with layer := Pictures.draw s.layer (
      [line a.border (along s.clip .bottom 0) (along s.clip .bottom 1), tick a s.layer.size.dpi s.clip 0,
       tick a s.layer.size.dpi s.clip 1]) }, none) := by
  refine (C91_axis_partial P hT a (.inl ht) s _).2 ⟨_, ⟨[0, 1], (layoutSubdivide .exact P.toS a.scale (a.formatter P) 1).labels,
    [], [], 0, [], [], ⟨layoutSubdivide .exact P.toS a.scale (a.formatter P) 1, .ok, ?_, ?_, rfl⟩, ⟨{}, .ok, ?_, rfl, rfl⟩,
    le_rfl, ⟨[], .nil, .inl rfl, le_rfl, by simp⟩, .nil, .inl ⟨ht, rfl⟩, rfl⟩, ?_⟩
  · unfold AxisSpec.tickPlacement RunTicks
    rw [htk]
    exact ⟨by norm_num, by simp⟩
  · simp [layoutSubdivide, List.range_succ, ScaleLayout.push, Arith.exact]
  · unfold AxisSpec.labelPlacement RunTicks
    rw [hl]
    rfl
  · simp [ha]

end Clip
