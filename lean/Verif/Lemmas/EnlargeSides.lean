import Verif.Lemmas.EnlargeElements
set_option linter.unusedSimpArgs false
/-! # Axes and legends at another resolution -/
namespace Clip.Enlarge
open Settings Drawing Pictures PlotSpec AxisSpec DataSpec Elements Options LegendSpec Whole
noncomputable section
variable {φ : Type} {k : ℝ} {P : PlotEnv φ} {s t : PlotState φ} {cs : List Expr} {E : ReadEnv} {z : LayerSize}

/-! ## One axis -/

theorem axis_takes (hk : k ≠ 0) (hz : Resized k E z) :
    List.Forall₂ (TakesToo E.stod) (axisTakes P E) (axisTakes P (env E z)) := by
  unfold axisTakes
  takesToo hk hz

theorem axis_means (hz : Resized k E z) (hc : ∀ c ∈ cs, Plain E.stod c) {a b : AxisDef φ} (h : AxisMeans P E cs a b) :
    AxisMeans P (env E z) cs (axis k a) (axis k b) :=
  ⟨h.scale, h.title, h.titleColor, h.titleOffset, last_big (g := measure k) (by growns hz) hc h.titlePadding, h.titleFonts,
    last_big (g := (k * ·)) (by growns hz) hc h.titleFontSize, h.titleRotate, h.tickOffset,
    last_big (g := measure k) (by growns hz) hc h.tickLength, h.tickPlacement, h.labelPlacement, h.labelFormat, h.labelAttach,
    h.labelOffset, last_big (g := measure k) (by growns hz) hc h.labelPadding, h.labelRotate, h.labelFonts,
    last_big (g := (k * ·)) (by growns hz) hc h.labelFontSize, h.labelColor,
    acts_big (g := stroke k) (by growns hz) hc h.border, h.align⟩

theorem axis_start (hs : State k s t) (al : AxisAlign) (sc : Scale) : Defaults.axis t al sc = axis k (Defaults.axis s al sc) := by
  unfold Defaults.axis axis
  rw [pt_state hs, em_big hs, hs.page.fonts, solid_big]
  simp only [← noLength_big]

theorem old_entry {Q : Expr → Prop} {t t' : Takes} (h : List.Forall₂ (TakesOn Q) t t') {q : String × (List Expr → Prop)} (hq : q ∈ t') :
    ∃ p ∈ t, TakesOn Q p q := by
  induction h with
  | nil => cases hq
  | cons h _ ih =>
    rcases List.mem_cons.1 hq with rfl | hq
    · exact ⟨_, .head _, h⟩
    · obtain ⟨p, h1, h2⟩ := ih hq
      exact ⟨p, .tail _ h1, h2⟩

theorem new_entry {Q : Expr → Prop} {t t' : Takes} (h : List.Forall₂ (TakesOn Q) t t') {p : String × (List Expr → Prop)} (hp : p ∈ t) :
    ∃ q ∈ t', TakesOn Q p q := by
  induction h with
  | nil => cases hp
  | cons h _ ih =>
    rcases List.mem_cons.1 hp with rfl | hp
    · exact ⟨_, .head _, h⟩
    · obtain ⟨p, h1, h2⟩ := ih hp
      exact ⟨p, .tail _ h1, h2⟩

theorem axis_settled (hk : k ≠ 0) (hs : State k s t) (hc : ∀ c ∈ cs, Plain P.stod c) {a : AxisDef φ}
    (h : SettledAxis P s cs a) : SettledAxis P t cs (axis k a) := by
  obtain ⟨h1, h2, h3, al, h4, h5⟩ := h
  refine ⟨h1, h2, ?_, al, h4, ?_⟩
  · intro c hm n A hA hn
    rw [env_big hs] at hA
    rcases List.mem_cons.1 hA with hA | hA
    · exact h3 c hm n A (by rw [hA]; exact .head _) hn
    · obtain ⟨⟨n', A'⟩, hp, he, ht⟩ := old_entry (axis_takes hk (resized hs)) hA
      have he : n = n' := he
      subst he
      exact ht c (hc c hm) hn (h3 c hm n A' (.tail _ hp) hn)
  · rw [env_big hs, axis_start hs]
    exact axis_means (resized hs) hc h5

/-! ## Four axes -/

def axes (k : ℝ) (c : AxesConf φ) : AxesConf φ := ⟨axis k c.top, axis k c.right, axis k c.bottom, axis k c.left, four k c.margins⟩

theorem side_big (c : AxesConf φ) (σ : Side) : sideOf (axes k c) σ = axis k (sideOf c σ) := by cases σ <;> rfl

theorem marginOf_big (c : AxesConf φ) (σ : Side) : marginOf (axes k c) σ = k * marginOf c σ := by cases σ <;> rfl

theorem axes_start (hs : State k s t) : Defaults.axes t = axes k (Defaults.axes s) := by
  unfold Defaults.axes axes four
  rw [em_big hs, hs.scales, axis_start hs, axis_start hs, axis_start hs, axis_start hs]

theorem margin_names : ∀ σ : Side, "margin" ∈ lengthOptions ∧ ("margin-" ++ σ.word) ∈ lengthOptions := by
  intro σ; cases σ <;> decide +kernel

theorem axes_means (hz : Resized k E z) (hc : ∀ c ∈ cs, Plain E.stod c) (ha : ∀ σ, ∀ c ∈ optionsFor σ cs, Plain E.stod c)
    {a b : AxesConf φ} (h : AxesMeans P E cs a b) : AxesMeans P (env E z) cs (axes k a) (axes k b) := by
  refine ⟨fun σ => ?_, fun σ => ?_, fun σ => ?_⟩
  · rw [side_big, side_big]
    exact axis_means hz (ha σ) (h.axis σ)
  · rw [side_big, side_big]
    exact h.enable σ
  · rw [marginOf_big, marginOf_big]
    refine last_big (g := (k * ·)) ?_ hc (h.margin σ)
    intro n hn
    simp only [List.mem_cons, List.not_mem_nil, or_false] at hn
    rcases hn with rfl | rfl
    · exact grows_size hz (margin_names σ).1
    · exact grows_size hz (margin_names σ).2

theorem some_side : ∀ p ∈ sided, ∀ e ∈ p.2, e.2 ≠ [] := by decide +kernel

theorem split_side {n : Str} {base : String} {S : List Side} (h : splitName n = some (base, S)) : ∃ σ, σ ∈ S := by
  unfold splitName at h
  obtain ⟨p, hp, h⟩ := List.exists_of_findSome?_eq_some h
  obtain ⟨e, he, h⟩ := Option.map_eq_some_iff.1 h
  have := some_side p hp e (List.mem_of_find?_eq_some he)
  cases h
  exact List.exists_mem_of_ne_nil _ this

theorem one_option (b : String) (args : List Expr) : nameOf (.list (.literal b.toList :: args)) = some b.toList ∧
    argsOf (.list (.literal b.toList :: args)) = args := ⟨rfl, rfl⟩

theorem axes_accepts (hk : k ≠ 0) (hz : Resized k E z) (hc : ∀ c ∈ cs, Plain E.stod c) (ha : ∀ σ, ∀ c ∈ optionsFor σ cs, Plain E.stod c)
    (h : ∀ e ∈ cs, axesTakes P E e) : ∀ e ∈ cs, axesTakes P (env E z) e := by
  intro c hm
  rcases h c hm with ⟨n, base, S, A, h1, h2, h3, h4⟩ | h | ⟨n, hn, h1, v, h2⟩
  · obtain ⟨σ, hσ⟩ := split_side h2
    have hp : Plain E.stod (.list (.literal (String.toList base) :: argsOf c)) := by
      refine ha σ _ (List.mem_filterMap.2 ⟨c, hm, ?_⟩)
      rw [h1]
      show (match splitName n with | some (base, sides) => _ | none => none) = _
      rw [h2]
      exact if_pos hσ
    obtain ⟨⟨base', A'⟩, h5, h6, h7⟩ := new_entry (axis_takes hk hz) h3
    have h6 : base' = base := h6
    subst h6
    exact .inl ⟨n, base', S, A', h1, h2, h5, h7 (.list (.literal (String.toList base') :: argsOf c)) hp rfl h4⟩
  · exact .inr (.inl h)
  · refine .inr (.inr ⟨n, hn, h1, k * v, size_big hz ((hc c hm).length n ?_ h1) h2⟩)
    simp only [List.mem_cons, List.not_mem_nil, or_false] at hn
    rcases hn with rfl | rfl | rfl | rfl | rfl <;> decide +kernel

theorem axes_settled (hk : k ≠ 0) (hs : State k s t) (hc : ∀ c ∈ cs, Plain P.stod c) (ha : ∀ σ, ∀ c ∈ optionsFor σ cs, Plain P.stod c)
    {c : AxesConf φ} (h : SettledAxes P s cs c) : SettledAxes P t cs (axes k c) := by
  unfold SettledAxes
  rw [env_big hs, axes_start hs]
  exact ⟨axes_accepts hk (resized hs) hc ha h.1, axes_means (resized hs) hc ha h.2⟩

/-! ## Legends -/

theorem item_takes (hk : k ≠ 0) (hz : Resized k E z) :
    List.Forall₂ (TakesToo E.stod) (itemTakes P E) (itemTakes P (env E z)) := by
  unfold itemTakes
  takesToo hk hz

theorem item_means (hz : Resized k E z) (hc : ∀ c ∈ cs, Plain E.stod c) {a b : LegendItem φ} (h : ItemMeans P E cs a b) :
    ItemMeans P (env E z) cs (item k a) (item k b) :=
  ⟨h.label, h.labelAlign, last_big (g := (k * ·)) (by growns hz) hc h.labelMargin, h.labelColor, h.labelFonts,
    last_big (g := (k * ·)) (by growns hz) hc h.labelFontSize, h.marker, h.markerAlign,
    last_big (g := (k * ·)) (by growns hz) hc h.markerMargin, h.markerColor, last_big (g := (k * ·)) (by growns hz) hc h.markerSize⟩

theorem item_start (hs : State k s t) : Defaults.legendItem t = item k (Defaults.legendItem s) := by
  unfold Defaults.legendItem item
  rw [em_big hs, hs.page.fonts]
  simp only [mul_left_comm k]

/-- An option of a legend without pixels, nor in the item. -/
def PlainPart (stod : Str → Option (ℝ × Nat)) (c : Expr) : Prop :=
  Plain stod c ∧ (nameOf c = some "item".toList → ∀ i ∈ argsOf c, Plain stod i)

theorem legend_takes (hk : k ≠ 0) (hz : Resized k E z) :
    List.Forall₂ (TakesOn (PlainPart E.stod)) (legendTakes P E) (legendTakes P (env E z)) := by
  have e : ∀ {p q : String × (List Expr → Prop)}, TakesToo E.stod p q → TakesOn (PlainPart E.stod) p q :=
    fun h => ⟨h.1, fun c hc => h.2 c hc.1⟩
  unfold legendTakes
  repeat (first
    | exact List.Forall₂.nil
    | refine List.Forall₂.cons (e (by takeToo hk hz)) ?_
    | refine List.Forall₂.cons ⟨rfl, fun c hc hn h => accepted_big (item_takes hk hz) (hc.2 hn) h⟩ ?_)

theorem legend_means (hk : k ≠ 0) (hz : Resized k E z) (hc : ∀ c ∈ cs, PlainPart E.stod c) {i : LegendItem φ} {a b : LegendConf φ}
    (h : LegendMeans P E i cs a b) : LegendMeans P (env E z) (item k i) cs (legend k a) (legend k b) := by
  have hp : ∀ c ∈ cs, Plain E.stod c := fun c hm => (hc c hm).1
  refine ⟨h.horiz, h.vert, last_big (g := (k * ·)) (by growns hz) hp h.rowPadding,
    last_big (g := (k * ·)) (by growns hz) hp h.columnPadding, h.flow, ?_,
    last_big (g := (k * ·)) (by growns hz) hp h.paddingTop, last_big (g := (k * ·)) (by growns hz) hp h.paddingRight,
    last_big (g := (k * ·)) (by growns hz) hp h.paddingBottom, last_big (g := (k * ·)) (by growns hz) hp h.paddingLeft,
    last_big (g := (k * ·)) (by growns hz) hp h.marginTop, last_big (g := (k * ·)) (by growns hz) hp h.marginRight,
    last_big (g := (k * ·)) (by growns hz) hp h.marginBottom, last_big (g := (k * ·)) (by growns hz) hp h.marginLeft,
    acts_big (g := stroke k) (by unfold borderOf; growns hz) hp h.borderTop, acts_big (g := stroke k) (by unfold borderOf; growns hz) hp h.borderRight,
    acts_big (g := stroke k) (by unfold borderOf; growns hz) hp h.borderBottom, acts_big (g := stroke k) (by unfold borderOf; growns hz) hp h.borderLeft,
    h.background⟩
  refine acts_big (g := List.map (item k)) (t := [("item", fun args x y => ∃ j, IsItem P E i args j ∧ y = x ++ [j])])
    (t' := [("item", fun args x y => ∃ j, IsItem P (env E z) (item k i) args j ∧ y = x ++ [j])]) (.cons ⟨rfl, ?_⟩ .nil) hc h.items
  rintro c hc hn x y ⟨j, ⟨h1, h2⟩, rfl⟩
  exact ⟨item k j, ⟨accepted_big (item_takes hk hz) (hc.2 hn) h1, item_means hz (hc.2 hn) h2⟩, by rw [List.map_append]; rfl⟩

theorem legend_start (hs : State k s t) : Defaults.legend t = legend k (Defaults.legend s) := by
  unfold Defaults.legend legend four
  rw [em_big hs]
  simp only [mul_left_comm k, ← solid_zero, List.map_nil]

theorem legend_settled (hk : k ≠ 0) (hs : State k s t) (hc : ∀ c ∈ cs, PlainPart P.stod c) {c : LegendConf φ}
    (h : SettledLegend P s cs c) : SettledLegend P t cs (legend k c) := by
  obtain ⟨ha, o, hm, rfl⟩ := h
  unfold SettledLegend Settled
  rw [env_big hs, legend_start hs, item_start hs]
  exact ⟨accepted_big (legend_takes hk (resized hs)) hc ha, _, legend_means hk (resized hs) hc hm, rfl⟩

end
end Clip.Enlarge
