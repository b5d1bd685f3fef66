import Verif.Lemmas.Reorder
import Verif.Spec.Reorder
import Verif.Spec.WholePlot
/-! # C114: the options of the items of a legend in another order -/
set_option linter.unusedSimpArgs false
namespace Clip.Reorder
open Settings Drawing Options Whole
variable {φ : Type} {P : PlotEnv φ} {E : ReadEnv} {cs cs' : List Expr}

theorem acts_back {α : Type} {t : List (String × Effect α)} {g : List String} (hg : ∀ p ∈ t, p.1 ∈ g) {a b : α}
    (h : Acts t (cs.filter (named g)) a b) : Acts t cs a b := by
  induction cs generalizing a with
  | nil => exact h
  | cons c cs ih =>
    rw [List.filter_cons] at h
    split at h
    · cases h with
      | act h1 h2 h3 h4 => exact .act h1 h2 h3 (ih h4)
      | skip h1 h2 => exact .skip h1 (ih h2)
    · next hn => exact .skip (fun p hp he => hn (named_iff.2 ⟨_, hg p hp, he⟩)) (ih h)

theorem acts_group {α : Type} {t : List (String × Effect α)} (g : List String) (hg : ∀ p ∈ t, p.1 ∈ g)
    (hc : cs.filter (named g) = cs'.filter (named g)) {a b : α} (h : Acts t cs a b) : Acts t cs' a b :=
  acts_back hg (hc ▸ acts_only hg h)

theorem last_group {α : Type} {R : List Expr → α → Prop} {names : List String}
    (hc : cs.filter (named names) = cs'.filter (named names)) {a b : α} (h : LastOf R names cs a b) : LastOf R names cs' a b :=
  acts_group names (fun p hp => by obtain ⟨n, hn, rfl⟩ := List.mem_map.1 hp; exact hn) hc h

theorem item_ordered (hc : SameUpToOrder itemGroups cs cs') {a b : LegendItem φ} (h : IsItem P E a cs b) : IsItem P E a cs' b := by
  obtain ⟨h0, h⟩ := h
  have g := hc.2
  simp only [itemGroups, List.forall_mem_cons] at g
  obtain ⟨g1, g2, g3, g4, g5, g6, g7, g8, g9, g10, g11, _⟩ := g
  exact ⟨fun c hm => h0 c (hc.1.mem_iff.2 hm), last_group g1 h.label, last_group g2 h.labelAlign, last_group g3 h.labelMargin,
    last_group g4 h.labelColor, acts_group ["font", "label-font"] (by simp) g5 h.labelFonts, last_group g6 h.labelFontSize,
    last_group g7 h.marker, last_group g8 h.markerAlign, last_group g9 h.markerMargin, last_group g10 h.markerColor,
    last_group g11 h.markerSize⟩

theorem item_name {c c' : Expr} (h : OptionUpToItems c c') : nameOf c' = nameOf c := by
  cases h with
  | same => rfl
  | item h h' => exact h'.trans h.symm

theorem item_symm {c c' : Expr} (h : OptionUpToItems c c') : OptionUpToItems c' c := by
  cases h with
  | same => exact .same _
  | item h h' hc => exact .item h' h ⟨hc.1.symm, fun g hg => (hc.2 g hg).symm⟩

theorem acts_each {α : Type} {t : List (String × Effect α)} {a b : α} (h : Acts t cs a b) (hc : List.Forall₂ OptionUpToItems cs cs')
    (ht : ∀ p ∈ t, ∀ c c', OptionUpToItems c c' → nameOf c = some (String.toList p.1) → ∀ a b, p.2 (argsOf c) a b → p.2 (argsOf c') a b) :
    Acts t cs' a b := by
  induction h generalizing cs' with
  | nil => cases hc; exact .nil _
  | act h1 h2 h3 _ ih =>
    cases hc with
    | cons hcc hcs => exact .act ((item_name hcc).trans h1) h2 (ht _ h2 _ _ hcc h1 _ _ h3) (ih hcs)
  | skip h1 _ ih =>
    cases hc with
    | cons hcc hcs => exact .skip (fun p hp => by rw [item_name hcc]; exact h1 p hp) (ih hcs)

theorem acts_unitemed {α : Type} {t : List (String × Effect α)} {a b : α} (h : Acts t cs a b) (hc : List.Forall₂ OptionUpToItems cs cs')
    (hi : "item" ∉ t.map (·.1)) : Acts t cs' a b :=
  acts_each h hc fun p hp c c' hcc hn a b hf => by
    cases hcc with
    | same => exact hf
    | item h => exact absurd (List.mem_map.2 ⟨p, hp, String.toList_inj.1 (Option.some.inj (hn.symm.trans h))⟩) hi

theorem last_unitemed {α : Type} {R : List Expr → α → Prop} {names : List String} {a b : α} (h : LastOf R names cs a b)
    (hc : List.Forall₂ OptionUpToItems cs cs') (hi : "item" ∉ names) : LastOf R names cs' a b :=
  acts_unitemed h hc (by rw [List.map_map]; exact fun h => hi (by simpa using h))

theorem legend_items {i : LegendItem φ} (hc : List.Forall₂ OptionUpToItems cs cs') {a b : LegendConf φ} (h : LegendMeans P E i cs a b) :
    LegendMeans P E i cs' a b :=
  ⟨acts_unitemed h.horiz hc (by decide +kernel), acts_unitemed h.vert hc (by decide +kernel),
    last_unitemed h.rowPadding hc (by decide +kernel), last_unitemed h.columnPadding hc (by decide +kernel),
    last_unitemed h.flow hc (by decide +kernel),
    acts_each h.items hc (fun p hp c c' hcc hn a b hf => by
      rw [List.mem_singleton] at hp
      subst hp
      cases hcc with
      | same => exact hf
      | item _ _ hs => exact hf.imp fun j hj => ⟨item_ordered hs hj.1, hj.2⟩),
    last_unitemed h.paddingTop hc (by decide +kernel), last_unitemed h.paddingRight hc (by decide +kernel),
    last_unitemed h.paddingBottom hc (by decide +kernel), last_unitemed h.paddingLeft hc (by decide +kernel),
    last_unitemed h.marginTop hc (by decide +kernel), last_unitemed h.marginRight hc (by decide +kernel),
    last_unitemed h.marginBottom hc (by decide +kernel), last_unitemed h.marginLeft hc (by decide +kernel),
    acts_unitemed h.borderTop hc (by simp only [borderOf, List.map_cons, List.map_nil]; decide +kernel),
    acts_unitemed h.borderRight hc (by simp only [borderOf, List.map_cons, List.map_nil]; decide +kernel),
    acts_unitemed h.borderBottom hc (by simp only [borderOf, List.map_cons, List.map_nil]; decide +kernel),
    acts_unitemed h.borderLeft hc (by simp only [borderOf, List.map_cons, List.map_nil]; decide +kernel),
    last_unitemed h.background hc (by decide +kernel)⟩

theorem settled_items {s : PlotState φ} (hc : List.Forall₂ OptionUpToItems cs cs') {c : LegendConf φ} (h : SettledLegend P s cs c) :
    SettledLegend P s cs' c := by
  obtain ⟨ha, o, hm, hl⟩ := h
  refine ⟨?_, o, legend_items hc hm, hl⟩
  clear hm hl
  induction hc with
  | nil => exact ha
  | @cons c₀ c' cs cs' h _ ih =>
    intro c hm
    rcases List.mem_cons.1 hm with rfl | hm
    · obtain ⟨n, A, h1, h2, h3⟩ := ha c₀ (.head _)
      refine ⟨n, A, h1, (item_name h).trans h2, ?_⟩
      cases h with
      | same => exact h3
      | item g1 g2 g3 =>
        have : n = "item" := String.toList_inj.1 (Option.some.inj (h2.symm.trans g1))
        subst this
        have hA : A = Acceptable (itemTakes P (s.env P)) := by
          simpa [legendTakes] using h1
        subst hA
        exact fun x hx => h3 x (g3.1.mem_iff.2 hx)
    · exact ih (fun x hx => ha x (.tail _ hx)) c hm

end Clip.Reorder
