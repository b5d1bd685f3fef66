import Verif.Lemmas.SourceElements
/-! # C122: the notation of values in legends -/
set_option linter.unusedSimpArgs false
namespace Clip.Notation
open Settings Drawing DataSpec Options Whole
variable {φ : Type} {P : PlotEnv φ} {E : ReadEnv} {s : PlotState φ} {cs cs' : List Expr}

theorem legend_name {c c' : Expr} (h : SameLegendOption P E c c') : nameOf c' = nameOf c := by
  cases h with
  | option h => exact option_name h
  | item h h' => exact h'.trans h.symm

theorem flipped {R : Expr → Expr → Prop} (hR : ∀ a b, R a b → R b a) {as bs : List Expr} (h : List.Forall₂ R as bs) :
    List.Forall₂ R bs as := by
  induction h with
  | nil => exact .nil
  | cons h _ ih => exact .cons (hR _ _ h) ih

theorem legend_symm {c c' : Expr} (h : SameLegendOption P E c c') : SameLegendOption P E c' c := by
  cases h with
  | option h => exact .option (option_symm h)
  | item h h' hc => exact .item h' h (flipped (fun _ _ => option_symm) hc)

theorem item_takes : ∀ p ∈ itemTakes P E, Takes' P E p := by
  unfold itemTakes
  taken

theorem item_same (hc : List.Forall₂ (SameOption P E) cs cs') {a b : LegendItem φ} (h : IsItem P E a cs b) : IsItem P E a cs' b :=
  ⟨accepted_same h.1 hc item_takes, last_same h.2.label hc (by kepts), last_same h.2.labelAlign hc (by kepts),
    last_same h.2.labelMargin hc (by kepts), last_same h.2.labelColor hc (by kepts), acts_same h.2.labelFonts hc (by kepts),
    last_same h.2.labelFontSize hc (by kepts), last_same h.2.marker hc (by kepts), last_same h.2.markerAlign hc (by kepts),
    last_same h.2.markerMargin hc (by kepts), last_same h.2.markerColor hc (by kepts), last_same h.2.markerSize hc (by kepts)⟩

theorem acts_any {α : Type} {t : List (String × Effect α)} {a b : α} (h : Acts t cs a b) (hc : List.Forall₂ (SameLegendOption P E) cs cs')
    (ht : ∀ p ∈ t, ∀ c c', SameLegendOption P E c c' → nameOf c = some (String.toList p.1) → ∀ a b, p.2 (argsOf c) a b → p.2 (argsOf c') a b) :
    Acts t cs' a b := by
  induction h generalizing cs' with
  | nil => cases hc; exact .nil _
  | act h1 h2 h3 _ ih =>
    cases hc with
    | cons hcc hcs => exact .act ((legend_name hcc).trans h1) h2 (ht _ h2 _ _ hcc h1 _ _ h3) (ih hcs)
  | skip h1 _ ih =>
    cases hc with
    | cons hcc hcs => exact .skip (fun p hp => by rw [legend_name hcc]; exact h1 p hp) (ih hcs)

/-- Options other than `item`. -/
theorem acts_legend {α : Type} {t : List (String × Effect α)} {a b : α} (h : Acts t cs a b) (hc : List.Forall₂ (SameLegendOption P E) cs cs')
    (ht : ∀ p ∈ t, Keeps P E p) (hi : "item" ∉ t.map (·.1)) : Acts t cs' a b :=
  acts_any h hc fun p hp c c' hcc hn a b hf => by
    cases hcc with
    | option h => exact ht p hp c c' h hn a b hf
    | item h => exact absurd (List.mem_map.2 ⟨p, hp, same_name hn h⟩) hi

theorem last_legend {α : Type} {R : List Expr → α → Prop} {names : List String} {a b : α}
    (h : LastOf R names cs a b) (hc : List.Forall₂ (SameLegendOption P E) cs cs') (ht : ∀ n ∈ names, Keeps P E (n, sets R))
    (hi : "item" ∉ names) : LastOf R names cs' a b :=
  acts_legend h hc (by
    intro p hp
    obtain ⟨n, hn, rfl⟩ := List.mem_map.1 hp
    exact ht n hn) (by rw [List.map_map]; exact fun h => hi (by simpa using h))

theorem items_legend {i : LegendItem φ} {a b : List (LegendItem φ)} (hc : List.Forall₂ (SameLegendOption P E) cs cs')
    (h : Acts [("item", fun args x y => ∃ j, IsItem P E i args j ∧ y = x ++ [j])] cs a b) :
    Acts [("item", fun args x y => ∃ j, IsItem P E i args j ∧ y = x ++ [j])] cs' a b :=
  acts_any h hc fun p hp c c' hcc hn a b hf => by
    rw [List.mem_singleton] at hp
    subst hp
    cases hcc with
    | option h => exact (keeps_other (by decide +kernel) : Keeps P E ("item", fun args x y => ∃ j, IsItem P E i args j ∧ y = x ++ [j])) c c' h hn a b hf
    | item _ _ hs => exact hf.imp fun j hj => ⟨item_same hs hj.1, hj.2⟩

theorem keeps_background : Keeps P E ("background", sets fun args (v : Option Color) => ∃ k, IsColor E args k ∧ v = some k) :=
  keeps_color (show "background" ∈ colorOptions by decide +kernel) (by
    intro args args' k a b h1 h2 h
    obtain ⟨k', h3, h4⟩ := h
    cases color_unique h1 h3
    exact ⟨k, h2, h4⟩)

theorem legend_means {i : LegendItem φ} (hc : List.Forall₂ (SameLegendOption P E) cs cs') {a b : LegendConf φ} (h : LegendMeans P E i cs a b) :
    LegendMeans P E i cs' a b :=
  ⟨acts_legend h.horiz hc (by kepts) (by decide +kernel), acts_legend h.vert hc (by kepts) (by decide +kernel),
    last_legend h.rowPadding hc (by kepts) (by decide +kernel), last_legend h.columnPadding hc (by kepts) (by decide +kernel),
    last_legend h.flow hc (by kepts) (by decide +kernel), items_legend hc h.items,
    last_legend h.paddingTop hc (by kepts) (by decide +kernel), last_legend h.paddingRight hc (by kepts) (by decide +kernel),
    last_legend h.paddingBottom hc (by kepts) (by decide +kernel), last_legend h.paddingLeft hc (by kepts) (by decide +kernel),
    last_legend h.marginTop hc (by kepts) (by decide +kernel), last_legend h.marginRight hc (by kepts) (by decide +kernel),
    last_legend h.marginBottom hc (by kepts) (by decide +kernel), last_legend h.marginLeft hc (by kepts) (by decide +kernel),
    acts_legend h.borderTop hc (by unfold borderOf; kepts) (by simp only [borderOf, List.map_cons, List.map_nil]; decide +kernel),
    acts_legend h.borderRight hc (by unfold borderOf; kepts) (by simp only [borderOf, List.map_cons, List.map_nil]; decide +kernel),
    acts_legend h.borderBottom hc (by unfold borderOf; kepts) (by simp only [borderOf, List.map_cons, List.map_nil]; decide +kernel),
    acts_legend h.borderLeft hc (by unfold borderOf; kepts) (by simp only [borderOf, List.map_cons, List.map_nil]; decide +kernel),
    last_legend h.background hc (List.forall_mem_cons.2 ⟨keeps_background, List.forall_mem_nil _⟩) (by decide +kernel)⟩

theorem legend_takes : ∀ p ∈ legendTakes P E, p.1 ≠ "item" → Takes' P E p := by
  have places : Takes' P E ("position", ArePlaces) := fun c c' hc hn hp =>
    (keeps_other (by decide +kernel) : Keeps P E ("position", fun args (_ _ : Unit) => ArePlaces args)) c c' hc hn () () hp
  have others : ∀ p ∈ (legendTakes P E).filter (fun p => decide (p.1 ≠ "item")), Takes' P E p := by
    simp only [legendTakes, ne_eq, decide_not, List.filter_cons, List.filter_nil]
    simp only [String.reduceEq, decide_false, decide_true, Bool.not_false, Bool.not_true, if_true, Bool.false_eq_true, if_false]
    refine List.forall_mem_cons.2 ⟨places, ?_⟩
    taken
  exact fun p hp hn => others p (List.mem_filter.2 ⟨hp, decide_eq_true hn⟩)

theorem legend_settled (hc : List.Forall₂ (SameLegendOption P (s.env P)) cs cs') {c : LegendConf φ} (h : SettledLegend P s cs c) :
    SettledLegend P s cs' c := by
  obtain ⟨ha, o, hm, hl⟩ := h
  refine ⟨fun c hc' => ?_, o, legend_means hc hm, hl⟩
  obtain ⟨c₀, h0, hs⟩ := left_of hc hc'
  obtain ⟨n, A, h1, h2, h3⟩ := ha c₀ h0
  refine ⟨n, A, h1, (legend_name hs).trans h2, ?_⟩
  by_cases hn : n = "item"
  · subst hn
    have hA : A = Acceptable (itemTakes P (s.env P)) := by
      simpa [legendTakes] using h1
    subst hA
    cases hs with
    | option h => exact (keeps_other (by decide +kernel) :
        Keeps P (s.env P) ("item", fun args (_ _ : Unit) => Acceptable (itemTakes P (s.env P)) args)) c₀ c h h2 () () h3
    | item _ _ h => exact accepted_same h3 h item_takes
  · cases hs with
    | option h => exact legend_takes _ h1 hn c₀ c h h2 h3
    | item h => exact absurd (same_name h2 h) hn

end Clip.Notation
