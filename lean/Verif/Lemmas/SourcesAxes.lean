import Verif.Lemmas.SourceElements
/-! # C122: the notation of values in the options of `axes` -/
set_option linter.unusedSimpArgs false
namespace Clip.Notation
open Settings Drawing DataSpec Options Whole
variable {φ : Type} {P : PlotEnv φ} {E : ReadEnv} {s : PlotState φ} {cs cs' : List Expr}

theorem axes_name {c c' : Expr} (h : SameAxesOption E c c') : nameOf c' = nameOf c := by
  cases h with
  | same => rfl
  | color h h' => exact h'.trans h.symm
  | size h h' => exact h'.trans h.symm
  | margin _ h h' => exact h'.trans h.symm

theorem axes_symm {c c' : Expr} (h : SameAxesOption E c c') : SameAxesOption E c' c := by
  cases h with
  | same => exact .same _
  | color h h' hs hb a b => exact .color h' h hs hb b a
  | size h h' hs hb a b => exact .size h' h hs hb b a
  | margin hg h h' a b => exact .margin hg h' h b a

theorem unsided : ∀ n ∈ ["margin", "margin-top", "margin-right", "margin-bottom", "margin-left", "position"], splitName (String.toList n) = none := by
  decide +kernel

/-- The options of one axis. -/
theorem options_same (σ : Side) (hc : List.Forall₂ (SameAxesOption E) cs cs') :
    List.Forall₂ (SameOption P E) (optionsFor σ cs) (optionsFor σ cs') := by
  unfold optionsFor
  induction hc with
  | nil => exact .nil
  | @cons c c' cs cs' h _ ih =>
    rw [List.filterMap_cons, List.filterMap_cons, axes_name h]
    cases hb : (nameOf c).bind splitName with
    | none => exact ih
    | some p =>
      obtain ⟨base, sides⟩ := p
      by_cases hσ : σ ∈ sides
      · simp only [if_pos hσ]
        refine .cons ?_ ih
        cases h with
        | same => exact .same _
        | color h1 h2 h3 h4 h5 h6 =>
          rw [h1, Option.bind_some, h3] at hb
          cases hb
          exact .color h4 rfl rfl h5 h6
        | size h1 h2 h3 h4 h5 h6 =>
          rw [h1, Option.bind_some, h3] at hb
          cases hb
          exact .size h4 rfl rfl h5 h6
        | margin hg h1 h2 h3 h4 =>
          rw [h1, Option.bind_some, unsided _ (by revert hg; exact fun hg => List.mem_append_left ["position"] hg)] at hb
          cases hb
      · simp only [if_neg hσ]
        exact ih

theorem acts_axes {α : Type} {t : List (String × Effect α)} {a b : α} (h : Acts t cs a b) (hc : List.Forall₂ (SameAxesOption E) cs cs')
    (ht : ∀ p ∈ t, ∀ c c', SameAxesOption E c c' → nameOf c = some (String.toList p.1) → ∀ a b, p.2 (argsOf c) a b → p.2 (argsOf c') a b) :
    Acts t cs' a b := by
  induction h generalizing cs' with
  | nil => cases hc; exact .nil _
  | act h1 h2 h3 _ ih =>
    cases hc with
    | cons hcc hcs => exact .act ((axes_name hcc).trans h1) h2 (ht _ h2 _ _ hcc h1 _ _ h3) (ih hcs)
  | skip h1 _ ih =>
    cases hc with
    | cons hcc hcs => exact .skip (fun p hp => by rw [axes_name hcc]; exact h1 p hp) (ih hcs)

theorem not_sided {n : String} (hn : n ∈ ["margin", "margin-top", "margin-right", "margin-bottom", "margin-left", "position"]) {c : Expr}
    {m : Str} {p : String × List Side} {α : Prop} (h : nameOf c = some (String.toList n)) (h1 : nameOf c = some m)
    (h2 : splitName m = some p) : α := by
  rw [h] at h1
  cases h1
  rw [unsided n hn] at h2
  cases h2

theorem axes_means (hc : List.Forall₂ (SameAxesOption (s.env P)) cs cs') {a b : AxesConf φ} (h : AxesMeans P (s.env P) cs a b) :
    AxesMeans P (s.env P) cs' a b := by
  refine ⟨fun σ => axis_means (options_same σ hc) (h.axis σ), fun σ => acts_axes (h.enable σ) hc ?_, fun σ => acts_axes (h.margin σ) hc ?_⟩
  · intro p hp c c' hcc hn a b hf
    obtain ⟨n, hm, rfl⟩ := List.mem_map.1 hp
    rw [List.mem_singleton] at hm
    subst hm
    have hn : nameOf c = some (String.toList "position") := hn
    cases hcc with
    | same => exact hf
    | color h1 _ h2 => exact not_sided (n := "position") (by decide) hn h1 h2
    | size h1 _ h2 => exact not_sided (n := "position") (by decide) hn h1 h2
    | margin hg h1 => exact absurd (same_name h1 hn ▸ hg) (by decide)
  · intro p hp c c' hcc hn a b hf
    obtain ⟨n, hm, rfl⟩ := List.mem_map.1 hp
    have hm' : n ∈ ["margin", "margin-top", "margin-right", "margin-bottom", "margin-left", "position"] := by
      rcases List.mem_cons.1 hm with rfl | hm
      · decide
      · rw [List.mem_singleton] at hm
        subst hm
        cases σ <;> decide
    cases hcc with
    | same => exact hf
    | color h1 _ h2 => exact not_sided hm' hn h1 h2
    | size h1 _ h2 => exact not_sided hm' hn h1 h2
    | margin hg h1 h2 h3 h4 =>
      show IsSize _ _ b
      have : IsSize _ _ b := hf
      exact size_unique h3 this ▸ h4

theorem axes_settled (hc : List.Forall₂ (SameAxesOption (s.env P)) cs cs') {c : AxesConf φ} (h : SettledAxes P s cs c) :
    SettledAxes P s cs' c := by
  refine ⟨fun e he => ?_, axes_means hc h.2⟩
  obtain ⟨e₀, h0, hs⟩ := left_of hc he
  have ht := h.1 e₀ h0
  have key : ∀ n base sides A, nameOf e₀ = some n → splitName n = some (base, sides) → (base, A) ∈ axisTakes P (s.env P) → A (argsOf e₀) →
      SameOption P (s.env P) (.list (.literal (String.toList base) :: argsOf e₀)) (.list (.literal (String.toList base) :: argsOf e)) →
      axesTakes P (s.env P) e := fun n base sides A h1 h2 h3 h4 h5 =>
    .inl ⟨n, base, sides, A, (axes_name hs).trans h1, h2, h3, axis_takes (base, A) (.tail _ h3) (.list (.literal (String.toList base) :: argsOf e₀))
      (.list (.literal (String.toList base) :: argsOf e)) h5 rfl h4⟩
  cases hs with
  | same => exact ht
  | margin hg h1 h2 h3 h4 => exact .inr (.inr ⟨_, hg, h2, _, h4⟩)
  | color h1 h2 h3 hb h5 h6 =>
    rcases ht with ⟨n, base, sides, A, g1, g2, g3, g4⟩ | ⟨g1, _⟩ | ⟨n, g1, g2, _⟩
    · cases Option.some.inj (g1.symm.trans h1)
      cases Option.some.inj (g2.symm.trans h3)
      exact key _ _ _ _ g1 g2 g3 g4 (.color hb rfl rfl h5 h6)
    · exact not_sided (n := "position") (by decide) g1 h1 h3
    · exact not_sided (List.mem_append_left ["position"] g1) g2 h1 h3
  | size h1 h2 h3 hb h5 h6 =>
    rcases ht with ⟨n, base, sides, A, g1, g2, g3, g4⟩ | ⟨g1, _⟩ | ⟨n, g1, g2, _⟩
    · cases Option.some.inj (g1.symm.trans h1)
      cases Option.some.inj (g2.symm.trans h3)
      exact key _ _ _ _ g1 g2 g3 g4 (.size hb rfl rfl h5 h6)
    · exact not_sided (n := "position") (by decide) g1 h1 h3
    · exact not_sided (List.mem_append_left ["position"] g1) g2 h1 h3

end Clip.Notation
