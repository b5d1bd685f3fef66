import Verif.Props.AxisOptions
set_option linter.unusedSimpArgs false
set_option linter.unusedTactic false
/-!
# C90: the options of `axes`
-/
namespace Clip
open Commands Settings Pictures Drawing Options
variable {φ : Type} {P : PlotEnv φ} {E : ReadEnv}

/-! ## What every entry of the table of `axes` does -/

def SideEntry (P : PlotEnv φ) (E : ReadEnv) (p : String × Handler (AxesConf φ) Fail) : Prop :=
  ∃ base S h, splitName (String.toList p.1) = some (base, S) ∧ (base, h) ∈ axisOpts P E ∧
    (∀ args c c₁, p.2 args c = (c₁, none) → c₁.margins = c.margins ∧
      ∀ σ, (σ ∈ S → h args (sideOf c σ) = (sideOf c₁ σ, none)) ∧ (σ ∉ S → sideOf c₁ σ = sideOf c σ)) ∧
    ∀ A, Accepts h A → Accepts p.2 A

def PositionEntry (p : String × Handler (AxesConf φ) Fail) : Prop :=
  p.1 = "position" ∧
    (∀ args c c₁, p.2 args c = (c₁, none) → c₁.margins = c.margins ∧
      ∀ σ, IsPosition σ args (sideOf c₁ σ).enable ∧ sideOf c₁ σ = { sideOf c σ with enable := (sideOf c₁ σ).enable }) ∧
    Accepts p.2 fun args => ∀ e ∈ args, ∃ τ : Side, IsWord e τ.word

def MarginEntry (E : ReadEnv) (p : String × Handler (AxesConf φ) Fail) : Prop :=
  ∃ S, (p.1, S) ∈ ([("margin", [.top, .right, .bottom, .left]), ("margin-top", [.top]), ("margin-right", [.right]),
      ("margin-bottom", [.bottom]), ("margin-left", [.left])] : List (String × List Side)) ∧
    (∀ args c c₁, p.2 args c = (c₁, none) → ∀ σ, sideOf c₁ σ = sideOf c σ ∧
      (σ ∈ S → IsSize E args (marginOf c₁ σ)) ∧ (σ ∉ S → marginOf c₁ σ = marginOf c σ)) ∧
    Accepts p.2 (Has (IsSize E))

def AxesEntry (P : PlotEnv φ) (E : ReadEnv) (p : String × Handler (AxesConf φ) Fail) : Prop :=
  SideEntry P E p ∨ PositionEntry p ∨ MarginEntry E p

/-- Every entry of the table that counts, after the names `seen`. -/
def Entries (P : PlotEnv φ) (E : ReadEnv) (seen : List String) (l : List (String × Handler (AxesConf φ) Fail)) : Prop :=
  ∀ (n : String) h, n ∉ seen → optTable l (String.toList n) = some h → AxesEntry P E (n, h)

theorem entries_nil {seen : List String} : Entries P E seen ([] : List (String × Handler (AxesConf φ) Fail)) := by
  intro n h _ hf; simp [optTable] at hf

theorem entries_cons {seen : List String} {n : String} {h : Handler (AxesConf φ) Fail} {l} (he : AxesEntry P E (n, h))
    (hl : Entries P E (n :: seen) l) : Entries P E seen ((n, h) :: l) := by
  intro m k hm hf
  rw [optTable_cons] at hf
  split at hf
  · rename_i hnm; subst hnm; cases hf; exact he
  · rename_i hnm
    exact hl m k (by simp only [List.mem_cons, not_or]; exact ⟨fun e => hnm e.symm, hm⟩) hf

theorem entries_seen {seen : List String} {n : String} {h : Handler (AxesConf φ) Fail} {l} (he : n ∈ seen)
    (hl : Entries P E seen l) : Entries P E seen ((n, h) :: l) := by
  intro m k hm hf
  rw [optTable_cons] at hf
  split at hf
  · rename_i hnm; subst hnm; exact absurd he hm
  · exact hl m k hm hf

/-! ## Options for sides -/

variable {n base : String} {h : Handler (AxisDef φ) Fail}

theorem entry_top (hs : splitName n.toList = some (base, [.top])) (hm : (base, h) ∈ axisOpts P E) :
    AxesEntry P E (n, onTop h) := by
  unfold onTop
  refine .inl ⟨base, _, h, hs, hm, fun args c c₁ he => ?_, fun A hA => by dsimp only; exact accepts_part hA⟩
  dsimp only at he
  obtain ⟨v, hv, rfl⟩ := onPart_ok.1 he
  exact ⟨rfl, fun σ => by cases σ <;> simp [sideOf, hv]⟩

theorem entry_right (hs : splitName n.toList = some (base, [.right])) (hm : (base, h) ∈ axisOpts P E) :
    AxesEntry P E (n, onRight h) := by
  unfold onRight
  refine .inl ⟨base, _, h, hs, hm, fun args c c₁ he => ?_, fun A hA => by dsimp only; exact accepts_part hA⟩
  dsimp only at he
  obtain ⟨v, hv, rfl⟩ := onPart_ok.1 he
  exact ⟨rfl, fun σ => by cases σ <;> simp [sideOf, hv]⟩

theorem entry_bottom (hs : splitName n.toList = some (base, [.bottom])) (hm : (base, h) ∈ axisOpts P E) :
    AxesEntry P E (n, onBottom h) := by
  unfold onBottom
  refine .inl ⟨base, _, h, hs, hm, fun args c c₁ he => ?_, fun A hA => by dsimp only; exact accepts_part hA⟩
  dsimp only at he
  obtain ⟨v, hv, rfl⟩ := onPart_ok.1 he
  exact ⟨rfl, fun σ => by cases σ <;> simp [sideOf, hv]⟩

theorem entry_left (hs : splitName n.toList = some (base, [.left])) (hm : (base, h) ∈ axisOpts P E) :
    AxesEntry P E (n, onLeft h) := by
  unfold onLeft
  refine .inl ⟨base, _, h, hs, hm, fun args c c₁ he => ?_, fun A hA => by dsimp only; exact accepts_part hA⟩
  dsimp only at he
  obtain ⟨v, hv, rfl⟩ := onPart_ok.1 he
  exact ⟨rfl, fun σ => by cases σ <;> simp [sideOf, hv]⟩

theorem entry_xs (hs : splitName n.toList = some (base, [.top, .bottom])) (hm : (base, h) ∈ axisOpts P E) :
    AxesEntry P E (n, onXs h) := by
  unfold onXs onTop onBottom
  refine .inl ⟨base, _, h, hs, hm, fun args c c₁ he => ?_, fun A hA =>
    accepts_cons (accepts_part hA) (accepts_one (accepts_part hA))⟩
  obtain ⟨c₂, h1, he⟩ := callAll_cons.1 he
  obtain ⟨c₃, h2, he⟩ := callAll_cons.1 he
  rw [callAll_nil] at he
  cases he
  obtain ⟨v, hv, rfl⟩ := onPart_ok.1 h1
  obtain ⟨w, hw, rfl⟩ := onPart_ok.1 h2
  exact ⟨rfl, fun σ => by cases σ <;> simp_all [sideOf]⟩

theorem entry_ys (hs : splitName n.toList = some (base, [.right, .left])) (hm : (base, h) ∈ axisOpts P E) :
    AxesEntry P E (n, onYs h) := by
  unfold onYs onRight onLeft
  refine .inl ⟨base, _, h, hs, hm, fun args c c₁ he => ?_, fun A hA =>
    accepts_cons (accepts_part hA) (accepts_one (accepts_part hA))⟩
  obtain ⟨c₂, h1, he⟩ := callAll_cons.1 he
  obtain ⟨c₃, h2, he⟩ := callAll_cons.1 he
  rw [callAll_nil] at he
  cases he
  obtain ⟨v, hv, rfl⟩ := onPart_ok.1 h1
  obtain ⟨w, hw, rfl⟩ := onPart_ok.1 h2
  exact ⟨rfl, fun σ => by cases σ <;> simp_all [sideOf]⟩

theorem entry_all (hs : splitName n.toList = some (base, [.top, .right, .bottom, .left])) (hm : (base, h) ∈ axisOpts P E) :
    AxesEntry P E (n, onAll h) := by
  unfold onAll onTop onRight onBottom onLeft
  refine .inl ⟨base, _, h, hs, hm, fun args c c₁ he => ?_, fun A hA =>
    accepts_cons (accepts_part hA) (accepts_cons (accepts_part hA) (accepts_cons (accepts_part hA)
      (accepts_one (accepts_part hA))))⟩
  obtain ⟨c₂, h1, he⟩ := callAll_cons.1 he
  obtain ⟨c₃, h2, he⟩ := callAll_cons.1 he
  obtain ⟨c₄, h3, he⟩ := callAll_cons.1 he
  obtain ⟨c₅, h4, he⟩ := callAll_cons.1 he
  rw [callAll_nil] at he
  cases he
  obtain ⟨v, hv, rfl⟩ := onPart_ok.1 h1
  obtain ⟨w, hw, rfl⟩ := onPart_ok.1 h2
  obtain ⟨x, hx, rfl⟩ := onPart_ok.1 h3
  obtain ⟨y, hy, rfl⟩ := onPart_ok.1 h4
  exact ⟨rfl, fun σ => by cases σ <;> simp_all [sideOf]⟩

/-- Two handlers for all four axes, one after the other. -/
theorem entry_two {h₁ h₂ : Handler (AxisDef φ) Fail}
    (hs : splitName n.toList = some (base, [.top, .right, .bottom, .left]))
    (hm : (base, h) ∈ axisOpts P E)
    (hh : ∀ args a b c, h₁ args a = (b, none) → h₂ args b = (c, none) → h args a = (c, none))
    (ha : ∀ A, Accepts h A → Accepts h₁ A ∧ Accepts h₂ A) :
    AxesEntry P E (n, callAll [onTop h₁, onRight h₁, onBottom h₁, onLeft h₁, onTop h₂, onRight h₂, onBottom h₂, onLeft h₂]) := by
  unfold onTop onRight onBottom onLeft
  refine .inl ⟨base, _, h, hs, hm, fun args c c₁ he => ?_, fun A hA => ?_⟩
  · obtain ⟨c₂, h1, he⟩ := callAll_cons.1 he
    obtain ⟨c₃, h2, he⟩ := callAll_cons.1 he
    obtain ⟨c₄, h3, he⟩ := callAll_cons.1 he
    obtain ⟨c₅, h4, he⟩ := callAll_cons.1 he
    obtain ⟨c₆, h5, he⟩ := callAll_cons.1 he
    obtain ⟨c₇, h6, he⟩ := callAll_cons.1 he
    obtain ⟨c₈, h7, he⟩ := callAll_cons.1 he
    obtain ⟨c₉, h8, he⟩ := callAll_cons.1 he
    rw [callAll_nil] at he
    cases he
    obtain ⟨v, hv, rfl⟩ := onPart_ok.1 h1
    obtain ⟨w, hw, rfl⟩ := onPart_ok.1 h2
    obtain ⟨x, hx, rfl⟩ := onPart_ok.1 h3
    obtain ⟨y, hy, rfl⟩ := onPart_ok.1 h4
    obtain ⟨v', hv', rfl⟩ := onPart_ok.1 h5
    obtain ⟨w', hw', rfl⟩ := onPart_ok.1 h6
    obtain ⟨x', hx', rfl⟩ := onPart_ok.1 h7
    obtain ⟨y', hy', rfl⟩ := onPart_ok.1 h8
    refine ⟨rfl, fun σ => ⟨fun _ => ?_, fun hn => absurd (by cases σ <;> simp) hn⟩⟩
    cases σ
    · exact hh _ _ _ _ hv hv'
    · exact hh _ _ _ _ hw hw'
    · exact hh _ _ _ _ hx hx'
    · exact hh _ _ _ _ hy hy'
  · obtain ⟨h1, h2⟩ := ha A hA
    exact accepts_cons (accepts_part h1) (accepts_cons (accepts_part h1) (accepts_cons (accepts_part h1)
      (accepts_cons (accepts_part h1) (accepts_cons (accepts_part h2) (accepts_cons (accepts_part h2)
      (accepts_cons (accepts_part h2) (accepts_one (accepts_part h2))))))))

/-! ## Position and margins -/

theorem word_inj {e : Expr} {v w : String} (hv : IsWord e v) (hw : IsWord e w) : v = w := by
  rcases hv with rfl | rfl <;> rcases hw with hw | hw <;> simpa [String.toList_inj] using hw

theorem enable_one {e : Expr} {es : List Expr} {c : AxesConf φ} (τ : Side) (he : IsWord e τ.word) :
    enableAxes (e :: es) c = enableAxes es (match τ with
      | .top => { c with top := { c.top with enable := true } }
      | .bottom => { c with bottom := { c.bottom with enable := true } }
      | .left => { c with left := { c.left with enable := true } }
      | .right => { c with right := { c.right with enable := true } }) := by
  rw [enableAxes, word_eq he, word_eq he, word_eq he, word_eq he]
  cases τ <;> simp [Side.word]

theorem enable_none {e : Expr} {es : List Expr} {c : AxesConf φ} (he : ∀ τ : Side, ¬ IsWord e τ.word) :
    enableAxes (e :: es) c = (c, some (.error .invalidValue)) := by
  rw [enableAxes]
  have h1 := he .top
  have h2 := he .right
  have h3 := he .bottom
  have h4 := he .left
  simp only [Side.word] at h1 h2 h3 h4
  rw [← wordIn] at h1 h2 h3 h4
  rw [if_neg h1, if_neg h3, if_neg h4, if_neg h2]

theorem enableAxes_ok {args : List Expr} {c c₁ : AxesConf φ} (h : enableAxes args c = (c₁, none)) :
    (∀ e ∈ args, ∃ τ : Side, IsWord e τ.word) ∧ c₁.margins = c.margins ∧
    ∀ σ, ((sideOf c₁ σ).enable = true ↔ (sideOf c σ).enable = true ∨ ∃ e ∈ args, IsWord e σ.word) ∧
      sideOf c₁ σ = { sideOf c σ with enable := (sideOf c₁ σ).enable } := by
  induction args generalizing c with
  | nil =>
    rw [enableAxes] at h
    cases h
    refine ⟨by simp, rfl, fun σ => ⟨by simp, rfl⟩⟩
  | cons e es ih =>
    by_cases he : ∃ τ : Side, IsWord e τ.word
    · obtain ⟨τ, hτ⟩ := he
      rw [enable_one τ hτ] at h
      obtain ⟨h1, h2, h3⟩ := ih h
      refine ⟨?_, ?_, fun σ => ?_⟩
      · intro x hx
        rcases List.mem_cons.1 hx with rfl | hx
        · exact ⟨τ, hτ⟩
        · exact h1 x hx
      · rw [h2]; cases τ <;> rfl
      · have hw : IsWord e σ.word ↔ σ = τ := by
          constructor
          · intro hσ
            have := word_inj hσ hτ
            revert this
            cases σ <;> cases τ <;> simp [Side.word]
          · rintro rfl; exact hτ
        have := h3 σ
        constructor
        · rw [this.1]
          simp only [List.mem_cons, exists_eq_or_imp, hw]
          cases σ <;> cases τ <;> simp [sideOf]
        · rw [this.2]
          cases σ <;> cases τ <;> simp [sideOf]
    · push Not at he
      rw [enable_none he] at h
      cases h

theorem enableAxes_acc {args : List Expr} (h : ∀ e ∈ args, ∃ τ : Side, IsWord e τ.word) (c : AxesConf φ) :
    ∃ c₁, enableAxes args c = (c₁, none) := by
  induction args generalizing c with
  | nil => exact ⟨c, rfl⟩
  | cons e es ih =>
    obtain ⟨τ, hτ⟩ := h e (by simp)
    rw [enable_one τ hτ]
    exact ih (fun x hx => h x (by simp [hx])) _

theorem entry_position : AxesEntry P E ("position", axesPosition) := by
  refine .inr (.inl ⟨rfl, fun args c c₁ he => ?_, fun args s => ⟨?_, ?_⟩⟩)
  · obtain ⟨h1, h2, h3⟩ := enableAxes_ok he
    refine ⟨h2, fun σ => ⟨⟨h1, ?_⟩, ?_⟩⟩
    · rw [(h3 σ).1]; cases σ <;> simp [sideOf]
    · rw [(h3 σ).2]; cases σ <;> simp [sideOf]
  · rintro ⟨s', h⟩; exact (enableAxes_ok h).1
  · intro h; exact enableAxes_acc h _

theorem entry_margin : AxesEntry P E ("margin", callAll [marginTop E, marginRight E, marginBottom E, marginLeft E]) := by
  unfold marginTop marginRight marginBottom marginLeft
  refine .inr (.inr ⟨_, .head _, fun args c c₁ he => ?_,
    accepts_cons (accepts_part acc_size) (accepts_cons (accepts_part acc_size) (accepts_cons (accepts_part acc_size)
      (accepts_one (accepts_part acc_size))))⟩)
  obtain ⟨c₂, h1, he⟩ := callAll_cons.1 he
  obtain ⟨c₃, h2, he⟩ := callAll_cons.1 he
  obtain ⟨c₄, h3, he⟩ := callAll_cons.1 he
  obtain ⟨c₅, h4, he⟩ := callAll_cons.1 he
  rw [callAll_nil] at he
  cases he
  obtain ⟨v, hv, rfl⟩ := onPart_ok.1 h1
  obtain ⟨w, hw, rfl⟩ := onPart_ok.1 h2
  obtain ⟨x, hx, rfl⟩ := onPart_ok.1 h3
  obtain ⟨y, hy, rfl⟩ := onPart_ok.1 h4
  refine fun σ => ⟨by cases σ <;> rfl, fun _ => ?_, fun hn => absurd (by cases σ <;> simp) hn⟩
  cases σ
  · exact eff_size _ _ _ hv
  · exact eff_size _ _ _ hw
  · exact eff_size _ _ _ hx
  · exact eff_size _ _ _ hy

theorem entry_marginTop : AxesEntry P E ("margin-top", (marginTop E : Handler (AxesConf φ) Fail)) := by
  unfold marginTop
  refine .inr (.inr ⟨[.top], by simp, fun args c c₁ he => ?_, by dsimp only; exact accepts_part acc_size⟩)
  dsimp only at he
  obtain ⟨v, hv, rfl⟩ := onPart_ok.1 he
  refine fun σ => ⟨by cases σ <;> rfl, fun h => ?_, fun hn => by cases σ <;> simp_all [marginOf]⟩
  simp only [List.mem_cons, List.not_mem_nil, or_false] at h
  subst h
  exact eff_size _ _ _ hv

theorem entry_marginRight : AxesEntry P E ("margin-right", (marginRight E : Handler (AxesConf φ) Fail)) := by
  unfold marginRight
  refine .inr (.inr ⟨[.right], by simp, fun args c c₁ he => ?_, by dsimp only; exact accepts_part acc_size⟩)
  dsimp only at he
  obtain ⟨v, hv, rfl⟩ := onPart_ok.1 he
  refine fun σ => ⟨by cases σ <;> rfl, fun h => ?_, fun hn => by cases σ <;> simp_all [marginOf]⟩
  simp only [List.mem_cons, List.not_mem_nil, or_false] at h
  subst h
  exact eff_size _ _ _ hv

theorem entry_marginBottom : AxesEntry P E ("margin-bottom", (marginBottom E : Handler (AxesConf φ) Fail)) := by
  unfold marginBottom
  refine .inr (.inr ⟨[.bottom], by simp, fun args c c₁ he => ?_, by dsimp only; exact accepts_part acc_size⟩)
  dsimp only at he
  obtain ⟨v, hv, rfl⟩ := onPart_ok.1 he
  refine fun σ => ⟨by cases σ <;> rfl, fun h => ?_, fun hn => by cases σ <;> simp_all [marginOf]⟩
  simp only [List.mem_cons, List.not_mem_nil, or_false] at h
  subst h
  exact eff_size _ _ _ hv

theorem entry_marginLeft : AxesEntry P E ("margin-left", (marginLeft E : Handler (AxesConf φ) Fail)) := by
  unfold marginLeft
  refine .inr (.inr ⟨[.left], by simp, fun args c c₁ he => ?_, by dsimp only; exact accepts_part acc_size⟩)
  dsimp only at he
  obtain ⟨v, hv, rfl⟩ := onPart_ok.1 he
  refine fun σ => ⟨by cases σ <;> rfl, fun h => ?_, fun hn => by cases σ <;> simp_all [marginOf]⟩
  simp only [List.mem_cons, List.not_mem_nil, or_false] at h
  subst h
  exact eff_size _ _ _ hv

/-! ## Fonts and font sizes of labels and titles -/

theorem font_order {args : List Expr} {a b c : AxisDef φ} (h1 : AxisOpt.labelFont P args a = (b, none))
    (h2 : AxisOpt.titleFont P args b = (c, none)) : callAll [AxisOpt.labelFont P, AxisOpt.titleFont P] args a = (c, none) :=
  callAll_cons.2 ⟨b, h1, callAll_cons.2 ⟨c, h2, rfl⟩⟩

theorem size_order {args : List Expr} {a b c : AxisDef φ} (h1 : AxisOpt.titleFontSize E args a = (b, none))
    (h2 : AxisOpt.labelFontSize E args b = (c, none)) :
    callAll [AxisOpt.labelFontSize E, AxisOpt.titleFontSize E] args a = (c, none) := by
  unfold AxisOpt.titleFontSize AxisOpt.labelFontSize sizeVar at *
  obtain ⟨v, hv, rfl⟩ := onPart_ok.1 h1
  obtain ⟨w, hw, rfl⟩ := onPart_ok.1 h2
  obtain ⟨v', hv', rfl⟩ := field_ok.1 hv
  obtain ⟨w', hw', rfl⟩ := field_ok.1 hw
  rw [hv'] at hw'
  cases hw'
  exact callAll_cons.2 ⟨_, onPart_ok.2 ⟨_, field_ok.2 ⟨_, hv', rfl⟩, rfl⟩,
    callAll_cons.2 ⟨_, onPart_ok.2 ⟨_, field_ok.2 ⟨_, hv', rfl⟩, rfl⟩, rfl⟩⟩

theorem accepts_unique {σ : Type} {h : Handler σ Fail} {A B : List Expr → Prop} (s : σ) (hA : Accepts h A) (hB : Accepts h B) :
    ∀ args, A args ↔ B args := fun args => (hA args s).symm.trans (hB args s)

theorem axis_accepts (hp : E.palette ≠ []) : Match (axisOpts P E : List (String × Handler (AxisDef φ) Fail)) (axisTakes P E) := by
  axis_open
  unfold axisTakes
  repeat' (first
    | exact match_nil
    | refine match_cons acc_borderStyle ?_
    | refine match_cons (accepts_part acc_borderStyle) ?_
    | refine match_cons acc_format ?_
    | refine match_cons acc_attach ?_
    | refine match_cons (by acc_opt) ?_
    | refine match_cons (accepts_cons (by acc_opt) (accepts_one (by acc_opt))) ?_)

/-- What an option of one axis takes. -/
theorem axis_takes (hp : E.palette ≠ []) {n : String} {h : Handler (AxisDef φ) Fail} (hm : (n, h) ∈ axisOpts P E) :
    ∃ A, (n, A) ∈ axisTakes P E ∧ Accepts h A := by
  obtain ⟨i, hi, he⟩ := List.mem_iff_getElem.1 hm
  have hg := (axis_accepts (P := P) hp).get hi ((axis_accepts (P := P) hp).length_eq ▸ hi)
  rw [List.get_eq_getElem, List.get_eq_getElem, he] at hg
  refine ⟨_, ?_, hg.2⟩
  have := hg.1
  dsimp only at this
  rw [this]
  exact List.getElem_mem _

theorem axisTakes_nodup : ((axisTakes P E).map (·.1)).Nodup := by simp [axisTakes]

theorem takes_unique {n : String} {A B : List Expr → Prop} {t : Takes} (hn : (t.map (·.1)).Nodup) (hA : (n, A) ∈ t)
    (hB : (n, B) ∈ t) : A = B := by
  have := (List.nodup_map_iff_inj_on (List.Nodup.of_map _ hn)).1 hn (n, A) hA (n, B) hB rfl
  simpa using this

macro "split_name" : tactic => `(tactic| decide +kernel)
macro "axis_mem" : tactic => `(tactic| simp [axisOpts])

theorem font_acc (a : AxisDef φ) (A : List Expr → Prop) (hA : Accepts (callAll [AxisOpt.labelFont P, AxisOpt.titleFont (φ := φ) P]) A) :
    Accepts (AxisOpt.labelFont (φ := φ) P) A ∧ Accepts (AxisOpt.titleFont (φ := φ) P) A := by
  unfold AxisOpt.labelFont AxisOpt.titleFont at *
  have h := accepts_unique a hA (accepts_cons acc_font (accepts_one acc_font))
  rw [(funext fun x => propext (h x) : A = _)]
  exact ⟨acc_font, acc_font⟩

theorem size_acc (a : AxisDef φ) (A : List Expr → Prop)
    (hA : Accepts (callAll [AxisOpt.labelFontSize E, AxisOpt.titleFontSize (φ := φ) E]) A) :
    Accepts (AxisOpt.titleFontSize (φ := φ) E) A ∧ Accepts (AxisOpt.labelFontSize (φ := φ) E) A := by
  unfold AxisOpt.labelFontSize AxisOpt.titleFontSize at *
  have h := accepts_unique a hA (accepts_cons (accepts_part acc_size) (accepts_one (accepts_part acc_size)))
  rw [(funext fun x => propext (h x) : A = _)]
  exact ⟨accepts_part acc_size, accepts_part acc_size⟩

set_option maxHeartbeats 8000000 in
set_option maxRecDepth 4000 in
theorem axes_entries (a : AxisDef φ) : Entries P E [] (axesOpts P E : List (String × Handler (AxesConf φ) Fail)) := by
  unfold axesOpts
  refine entries_cons entry_position ?_
  refine entries_cons (entry_xs (base := "scale") (by split_name) (by axis_mem)) ?_
  refine entries_cons (entry_ys (base := "scale") (by split_name) (by axis_mem)) ?_
  refine entries_cons (entry_top (base := "scale") (by split_name) (by axis_mem)) ?_
  refine entries_cons (entry_right (base := "scale") (by split_name) (by axis_mem)) ?_
  refine entries_cons (entry_bottom (base := "scale") (by split_name) (by axis_mem)) ?_
  refine entries_cons (entry_left (base := "scale") (by split_name) (by axis_mem)) ?_
  refine entries_cons (entry_xs (base := "limit") (by split_name) (by axis_mem)) ?_
  refine entries_cons (entry_ys (base := "limit") (by split_name) (by axis_mem)) ?_
  refine entries_cons (entry_top (base := "limit") (by split_name) (by axis_mem)) ?_
  refine entries_cons (entry_right (base := "limit") (by split_name) (by axis_mem)) ?_
  refine entries_cons (entry_bottom (base := "limit") (by split_name) (by axis_mem)) ?_
  refine entries_cons (entry_left (base := "limit") (by split_name) (by axis_mem)) ?_
  refine entries_cons (entry_xs (base := "label-placement") (by split_name) (by axis_mem)) ?_
  refine entries_cons (entry_ys (base := "label-placement") (by split_name) (by axis_mem)) ?_
  refine entries_cons (entry_top (base := "label-placement") (by split_name) (by axis_mem)) ?_
  refine entries_cons (entry_right (base := "label-placement") (by split_name) (by axis_mem)) ?_
  refine entries_cons (entry_bottom (base := "label-placement") (by split_name) (by axis_mem)) ?_
  refine entries_cons (entry_left (base := "label-placement") (by split_name) (by axis_mem)) ?_
  refine entries_cons (entry_all (base := "label-format") (by split_name) (by axis_mem)) ?_
  refine entries_cons (entry_xs (base := "label-format") (by split_name) (by axis_mem)) ?_
  refine entries_cons (entry_ys (base := "label-format") (by split_name) (by axis_mem)) ?_
  refine entries_cons (entry_top (base := "label-attach") (by split_name) (by axis_mem)) ?_
  refine entries_cons (entry_bottom (base := "label-attach") (by split_name) (by axis_mem)) ?_
  refine entries_cons (entry_right (base := "label-attach") (by split_name) (by axis_mem)) ?_
  refine entries_cons (entry_left (base := "label-attach") (by split_name) (by axis_mem)) ?_
  refine entries_cons (entry_top (base := "label-offset") (by split_name) (by axis_mem)) ?_
  refine entries_cons (entry_right (base := "label-offset") (by split_name) (by axis_mem)) ?_
  refine entries_cons (entry_bottom (base := "label-offset") (by split_name) (by axis_mem)) ?_
  refine entries_cons (entry_left (base := "label-offset") (by split_name) (by axis_mem)) ?_
  refine entries_cons (entry_top (base := "label-padding") (by split_name) (by axis_mem)) ?_
  refine entries_cons (entry_right (base := "label-padding") (by split_name) (by axis_mem)) ?_
  refine entries_cons (entry_bottom (base := "label-padding") (by split_name) (by axis_mem)) ?_
  refine entries_cons (entry_left (base := "label-padding") (by split_name) (by axis_mem)) ?_
  refine entries_cons (entry_top (base := "label-rotate") (by split_name) (by axis_mem)) ?_
  refine entries_cons (entry_right (base := "label-rotate") (by split_name) (by axis_mem)) ?_
  refine entries_cons (entry_bottom (base := "label-rotate") (by split_name) (by axis_mem)) ?_
  refine entries_cons (entry_left (base := "label-rotate") (by split_name) (by axis_mem)) ?_
  refine entries_cons (entry_top (base := "label-format") (by split_name) (by axis_mem)) ?_
  refine entries_cons (entry_right (base := "label-format") (by split_name) (by axis_mem)) ?_
  refine entries_cons (entry_bottom (base := "label-format") (by split_name) (by axis_mem)) ?_
  refine entries_cons (entry_left (base := "label-format") (by split_name) (by axis_mem)) ?_
  refine entries_cons (entry_all (base := "label-font-size") (by split_name) (by axis_mem)) ?_
  refine entries_cons (entry_all (base := "label-color") (by split_name) (by axis_mem)) ?_
  refine entries_cons (entry_xs (base := "label-color") (by split_name) (by axis_mem)) ?_
  refine entries_cons (entry_ys (base := "label-color") (by split_name) (by axis_mem)) ?_
  refine entries_cons (entry_top (base := "label-color") (by split_name) (by axis_mem)) ?_
  refine entries_cons (entry_right (base := "label-color") (by split_name) (by axis_mem)) ?_
  refine entries_cons (entry_bottom (base := "label-color") (by split_name) (by axis_mem)) ?_
  refine entries_cons (entry_left (base := "label-color") (by split_name) (by axis_mem)) ?_
  refine entries_cons (entry_all (base := "label-font") (by split_name) (by axis_mem)) ?_
  refine entries_cons (entry_top (base := "label-font") (by split_name) (by axis_mem)) ?_
  refine entries_cons (entry_right (base := "label-font") (by split_name) (by axis_mem)) ?_
  refine entries_cons (entry_bottom (base := "label-font") (by split_name) (by axis_mem)) ?_
  refine entries_cons (entry_left (base := "label-font") (by split_name) (by axis_mem)) ?_
  refine entries_cons (entry_xs (base := "label-font-size") (by split_name) (by axis_mem)) ?_
  refine entries_cons (entry_ys (base := "label-font-size") (by split_name) (by axis_mem)) ?_
  refine entries_cons (entry_top (base := "label-font-size") (by split_name) (by axis_mem)) ?_
  refine entries_cons (entry_right (base := "label-font-size") (by split_name) (by axis_mem)) ?_
  refine entries_cons (entry_bottom (base := "label-font-size") (by split_name) (by axis_mem)) ?_
  refine entries_cons (entry_left (base := "label-font-size") (by split_name) (by axis_mem)) ?_
  refine entries_seen (by simp) ?_
  refine entries_seen (by simp) ?_
  refine entries_cons (entry_top (base := "tick-placement") (by split_name) (by axis_mem)) ?_
  refine entries_cons (entry_right (base := "tick-placement") (by split_name) (by axis_mem)) ?_
  refine entries_cons (entry_bottom (base := "tick-placement") (by split_name) (by axis_mem)) ?_
  refine entries_cons (entry_left (base := "tick-placement") (by split_name) (by axis_mem)) ?_
  refine entries_cons (entry_top (base := "tick-offset") (by split_name) (by axis_mem)) ?_
  refine entries_cons (entry_right (base := "tick-offset") (by split_name) (by axis_mem)) ?_
  refine entries_cons (entry_bottom (base := "tick-offset") (by split_name) (by axis_mem)) ?_
  refine entries_cons (entry_left (base := "tick-offset") (by split_name) (by axis_mem)) ?_
  refine entries_cons (entry_top (base := "tick-length") (by split_name) (by axis_mem)) ?_
  refine entries_cons (entry_right (base := "tick-length") (by split_name) (by axis_mem)) ?_
  refine entries_cons (entry_bottom (base := "tick-length") (by split_name) (by axis_mem)) ?_
  refine entries_cons (entry_left (base := "tick-length") (by split_name) (by axis_mem)) ?_
  refine entries_cons (entry_xs (base := "title") (by split_name) (by axis_mem)) ?_
  refine entries_cons (entry_ys (base := "title") (by split_name) (by axis_mem)) ?_
  refine entries_cons (entry_top (base := "title") (by split_name) (by axis_mem)) ?_
  refine entries_cons (entry_right (base := "title") (by split_name) (by axis_mem)) ?_
  refine entries_cons (entry_bottom (base := "title") (by split_name) (by axis_mem)) ?_
  refine entries_cons (entry_left (base := "title") (by split_name) (by axis_mem)) ?_
  refine entries_cons (entry_all (base := "title-font") (by split_name) (by axis_mem)) ?_
  refine entries_cons (entry_top (base := "title-font") (by split_name) (by axis_mem)) ?_
  refine entries_cons (entry_right (base := "title-font") (by split_name) (by axis_mem)) ?_
  refine entries_cons (entry_bottom (base := "title-font") (by split_name) (by axis_mem)) ?_
  refine entries_cons (entry_left (base := "title-font") (by split_name) (by axis_mem)) ?_
  refine entries_cons (entry_all (base := "title-font-size") (by split_name) (by axis_mem)) ?_
  refine entries_cons (entry_top (base := "title-font-size") (by split_name) (by axis_mem)) ?_
  refine entries_cons (entry_right (base := "title-font-size") (by split_name) (by axis_mem)) ?_
  refine entries_cons (entry_bottom (base := "title-font-size") (by split_name) (by axis_mem)) ?_
  refine entries_cons (entry_left (base := "title-font-size") (by split_name) (by axis_mem)) ?_
  refine entries_cons (entry_all (base := "title-color") (by split_name) (by axis_mem)) ?_
  refine entries_cons (entry_top (base := "title-color") (by split_name) (by axis_mem)) ?_
  refine entries_cons (entry_right (base := "title-color") (by split_name) (by axis_mem)) ?_
  refine entries_cons (entry_bottom (base := "title-color") (by split_name) (by axis_mem)) ?_
  refine entries_cons (entry_left (base := "title-color") (by split_name) (by axis_mem)) ?_
  refine entries_cons (entry_top (base := "title-offset") (by split_name) (by axis_mem)) ?_
  refine entries_cons (entry_right (base := "title-offset") (by split_name) (by axis_mem)) ?_
  refine entries_cons (entry_bottom (base := "title-offset") (by split_name) (by axis_mem)) ?_
  refine entries_cons (entry_left (base := "title-offset") (by split_name) (by axis_mem)) ?_
  refine entries_cons (entry_top (base := "title-padding") (by split_name) (by axis_mem)) ?_
  refine entries_cons (entry_right (base := "title-padding") (by split_name) (by axis_mem)) ?_
  refine entries_cons (entry_bottom (base := "title-padding") (by split_name) (by axis_mem)) ?_
  refine entries_cons (entry_left (base := "title-padding") (by split_name) (by axis_mem)) ?_
  refine entries_cons (entry_top (base := "title-rotate") (by split_name) (by axis_mem)) ?_
  refine entries_cons (entry_right (base := "title-rotate") (by split_name) (by axis_mem)) ?_
  refine entries_cons (entry_bottom (base := "title-rotate") (by split_name) (by axis_mem)) ?_
  refine entries_cons (entry_left (base := "title-rotate") (by split_name) (by axis_mem)) ?_
  refine entries_cons entry_margin ?_
  refine entries_cons entry_marginTop ?_
  refine entries_cons entry_marginRight ?_
  refine entries_cons entry_marginBottom ?_
  refine entries_cons entry_marginLeft ?_
  refine entries_cons (entry_all (base := "border-width") (by split_name) (by axis_mem)) ?_
  refine entries_cons (entry_top (base := "border-width") (by split_name) (by axis_mem)) ?_
  refine entries_cons (entry_right (base := "border-width") (by split_name) (by axis_mem)) ?_
  refine entries_cons (entry_bottom (base := "border-width") (by split_name) (by axis_mem)) ?_
  refine entries_cons (entry_left (base := "border-width") (by split_name) (by axis_mem)) ?_
  refine entries_cons (entry_all (base := "border-color") (by split_name) (by axis_mem)) ?_
  refine entries_cons (entry_top (base := "border-color") (by split_name) (by axis_mem)) ?_
  refine entries_cons (entry_right (base := "border-color") (by split_name) (by axis_mem)) ?_
  refine entries_cons (entry_bottom (base := "border-color") (by split_name) (by axis_mem)) ?_
  refine entries_cons (entry_left (base := "border-color") (by split_name) (by axis_mem)) ?_
  refine entries_cons (entry_all (base := "border-style") (by split_name) (by axis_mem)) ?_
  refine entries_cons (entry_top (base := "border-style") (by split_name) (by axis_mem)) ?_
  refine entries_cons (entry_right (base := "border-style") (by split_name) (by axis_mem)) ?_
  refine entries_cons (entry_bottom (base := "border-style") (by split_name) (by axis_mem)) ?_
  refine entries_cons (entry_left (base := "border-style") (by split_name) (by axis_mem)) ?_
  refine entries_cons (entry_two (base := "font") (by split_name) (by axis_mem) (fun _ _ _ _ => font_order) (font_acc a)) ?_
  refine entries_cons (entry_two (base := "font-size") (by split_name) (by axis_mem) (fun _ _ _ _ => size_order) (size_acc a)) ?_
  exact entries_nil

end Clip
