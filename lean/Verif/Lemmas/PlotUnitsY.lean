import Verif.Spec.PlotUnitsY
import Verif.Lemmas.PlotUnitElements
set_option linter.unusedSimpArgs false
/-! # Plots in other units along the vertical scale: scales, series and options -/
namespace Clip.Units.Vertical
open Settings Drawing Pictures PlotSpec AxisSpec DataSpec Elements Options LegendSpec Whole
noncomputable section
variable {φ : Type} {P : PlotEnv φ} {E : ReadEnv} {a b : ℝ}

/-! ## Options -/

theorem option_name {c c' : Expr} (h : Option' P E a b c c') : nameOf c' = nameOf c := by
  cases h with
  | same => rfl
  | source h h' => rw [h, h']
  | given _ h h' => rw [h, h']
  | length _ h h' => rw [h, h']
  | limits h h' => rw [h, h']
  | limit _ h h' => rw [h, h']
  | padding h h' => rw [h, h']

/-- Options for other things are the same. -/
theorem option_eq {c c' : Expr} (h : Option' P E a b c c') {n : String} (hn : nameOf c = some (String.toList n)) (hm : n ∉ vertical) :
    c' = c := by
  have inside : ∀ m ∈ ["data-y-low", "data-y-high", "data-dy", "data-size-y", "limit-y-min", "limit-y-max"], m ∈ vertical := by decide
  have key : ∀ m ∈ vertical, nameOf c = some (String.toList m) → c' = c := fun m h1 h2 => absurd (same_name h2 hn ▸ h1) hm
  cases h with
  | same => rfl
  | source h => exact key "data-y" (by decide) h
  | @given m _ _ _ _ hm h => exact key m (inside m (by simp only [List.mem_append, List.mem_cons, List.not_mem_nil, or_false] at hm ⊢; tauto)) h
  | @length m _ _ _ _ hm h => exact key m (inside m (by simp only [List.mem_append, List.mem_cons, List.not_mem_nil, or_false] at hm ⊢; tauto)) h
  | limits h => exact key "limit-y" (by decide) h
  | @limit m _ _ _ hm h => exact key m (inside m (by simp only [List.mem_append, List.mem_cons, List.not_mem_nil, or_false] at hm ⊢; tauto)) h
  | padding h => exact key "scale-y-padding" (by decide) h

theorem acts_sim {α : Type} {ρ : α → α → Prop} {t : List (String × Effect α)} {cs cs' : List Expr}
    (hc : List.Forall₂ (Option' P E a b) cs cs')
    (ht : ∀ p ∈ t, ∀ c c', Option' P E a b c c' → nameOf c = some (String.toList p.1) → ∀ x x' y, ρ x x' → p.2 (argsOf c) x y →
      ∃ y', p.2 (argsOf c') x' y' ∧ ρ y y') {x x' y : α} (hx : ρ x x') (h : Acts t cs x y) : ∃ y', Acts t cs' x' y' ∧ ρ y y' := by
  induction h generalizing cs' x' with
  | nil => cases hc; exact ⟨x', .nil _, hx⟩
  | act h1 h2 h3 _ ih =>
    cases hc with
    | cons hcc hcs =>
      obtain ⟨b', h4, h5⟩ := ht _ h2 _ _ hcc h1 _ _ _ hx h3
      obtain ⟨d', h6, h7⟩ := ih hcs h5
      exact ⟨d', .act ((option_name hcc).trans h1) h2 h4 h6, h7⟩
  | skip h1 _ ih =>
    cases hc with
    | cons hcc hcs =>
      obtain ⟨d', h6, h7⟩ := ih hcs hx
      exact ⟨d', .skip (fun p hp => by rw [option_name hcc]; exact h1 p hp) h6, h7⟩

theorem acts_same {α : Type} {t : List (String × Effect α)} {cs cs' : List Expr} {x y : α} (h : Acts t cs x y)
    (hc : List.Forall₂ (Option' P E a b) cs cs') (ht : ∀ p ∈ t, p.1 ∉ vertical) : Acts t cs' x y := by
  obtain ⟨b', h1, rfl⟩ := acts_sim (ρ := Eq) hc (fun p hp c c' hcc hn x x' y hx hf =>
    ⟨y, by rw [option_eq hcc hn (ht p hp), ← hx]; exact hf, rfl⟩) rfl h
  exact h1

theorem last_same {α : Type} {R : List Expr → α → Prop} {names : List String} {cs cs' : List Expr} {x y : α}
    (h : LastOf R names cs x y) (hc : List.Forall₂ (Option' P E a b) cs cs') (ht : ∀ n ∈ names, n ∉ vertical) :
    LastOf R names cs' x y :=
  acts_same h hc (by
    intro p hp
    obtain ⟨n, hn, rfl⟩ := List.mem_map.1 hp
    exact ht n hn)

theorem known_same {names : List String} {cs cs' : List Expr} (h : Known names cs)
    (hc : List.Forall₂ (Option' P E a b) cs cs') : Known names cs' := by
  induction hc with
  | nil => exact h
  | cons hcc _ ih =>
    intro c hm
    rcases List.mem_cons.1 hm with rfl | hm
    · rw [option_name hcc]; exact h _ (.head _)
    · exact ih (fun x hx => h x (.tail _ hx)) c hm

theorem outside {α : Type} {n : String} {f : α} (h : n ∉ vertical) : (n, f).1 ∉ vertical := h

macro "othersY" : tactic => `(tactic| repeat (first
  | exact List.forall_mem_nil _
  | refine List.forall_mem_cons.2 ⟨by decide +kernel, ?_⟩
  | refine List.forall_mem_cons.2 ⟨outside (by decide +kernel), ?_⟩))

/-! ## The options for the vertical scale -/

theorem not_same {c : Expr} {n : String} (hn : nameOf c = some (String.toList n))
    (h : ∀ n ∈ vertical ++ ["data", "data-format", "data-size"], nameOf c ≠ some (String.toList n)) (hm : n ∈ vertical) : False :=
  h n (List.mem_append_left _ hm) hn

theorem inv_limits {c c' : Expr} (h : Option' P E a b c c') (hn : nameOf c = some "limit-y".toList) :
    ∃ x y x' y' lo hi, argsOf c = [x, y] ∧ argsOf c' = [x', y'] ∧ exprToFloat E.stod x = .ok lo ∧ exprToFloat E.stod y = .ok hi ∧
      exprToFloat E.stod x' = .ok (a * lo + b) ∧ exprToFloat E.stod y' = .ok (a * hi + b) := by
  cases h with
  | same h => exact (not_same hn h (by decide)).elim
  | source h => exact (apart h hn (by decide)).elim
  | given hm h => exact (apart_mem hm h hn (by decide)).elim
  | length hm h => exact (apart_mem hm h hn (by decide)).elim
  | limits _ _ h1 h2 h3 h4 h5 h6 => exact ⟨_, _, _, _, _, _, h1, h2, h3, h4, h5, h6⟩
  | limit hm h => exact (apart_mem hm h hn (by decide)).elim
  | padding h => exact (apart h hn (by decide)).elim

theorem inv_limit {c c' : Expr} {n : String} (h : Option' P E a b c c') (hm : n ∈ ["limit-y-min", "limit-y-max"])
    (hn : nameOf c = some n.toList) : ∃ v, IsNumber E (argsOf c) v ∧ IsNumber E (argsOf c') (a * v + b) := by
  have no : ∀ n ∈ ["limit-y-min", "limit-y-max"], n ∈ vertical ∧ "data-y" ≠ n ∧ n ∉ ["data-y-low", "data-y-high"] ∧
    n ∉ ["data-dy", "data-size-y"] ∧ "limit-y" ≠ n ∧ "scale-y-padding" ≠ n := by decide
  obtain ⟨n1, n2, n3, n4, n5, n6⟩ := no n hm
  cases h with
  | same h => exact (not_same hn h n1).elim
  | source h => exact (apart h hn n2).elim
  | given hm h => exact (apart_mem hm h hn n3).elim
  | length hm h => exact (apart_mem hm h hn n4).elim
  | limits h => exact (apart h hn n5).elim
  | limit _ _ _ h1 h2 => exact ⟨_, h1, h2⟩
  | padding h => exact (apart h hn n6).elim

theorem inv_padding {c c' : Expr} (h : Option' P E a b c c') (hn : nameOf c = some "scale-y-padding".toList) :
    ∃ v, IsNumber E (argsOf c) v ∧ IsNumber E (argsOf c') (a * v) := by
  cases h with
  | same h => exact (not_same hn h (by decide)).elim
  | source h => exact (apart h hn (by decide)).elim
  | given hm h => exact (apart_mem hm h hn (by decide)).elim
  | length hm h => exact (apart_mem hm h hn (by decide)).elim
  | limits h => exact (apart h hn (by decide)).elim
  | limit hm h => exact (apart_mem hm h hn (by decide)).elim
  | padding _ _ h1 h2 => exact ⟨_, h1, h2⟩

theorem inv_words {c c' : Expr} (h : Option' P E a b c c') (hn : nameOf c = some "scale-y".toList) :
    c' = c ∧ ∀ e ∈ argsOf c, IsWord e "linear" ∨ IsWord e "invert" ∨ IsWord e "inverted" := by
  refine ⟨option_eq h hn (by decide), ?_⟩
  cases h with
  | same _ h => exact h hn
  | source h => exact (apart h hn (by decide)).elim
  | given hm h => exact (apart_mem hm h hn (by decide)).elim
  | length hm h => exact (apart_mem hm h hn (by decide)).elim
  | limits h => exact (apart h hn (by decide)).elim
  | limit hm h => exact (apart_mem hm h hn (by decide)).elim
  | padding h => exact (apart h hn (by decide)).elim

theorem inv_data {c c' : Expr} {n : String} (h : Option' P E a b c c') (hm : n ∈ ["data-y", "data-y-low", "data-y-high"])
    (hn : nameOf c = some n.toList) : ∃ vs vs', dataLoadSimple P.readFile (argsOf c) = (vs, .ok ()) ∧
      dataLoadSimple P.readFile (argsOf c') = (vs', .ok ()) ∧ Numbers P (a * · + b) vs vs' := by
  have no : ∀ n ∈ ["data-y", "data-y-low", "data-y-high"], n ∈ vertical ∧
    n ∉ ["data-dy", "data-size-y"] ∧ "limit-y" ≠ n ∧ n ∉ ["limit-y-min", "limit-y-max"] ∧ "scale-y-padding" ≠ n := by decide
  obtain ⟨n1, n4, n5, n6, n7⟩ := no n hm
  cases h with
  | same h => exact (not_same hn h n1).elim
  | source _ _ h1 h2 h3 => exact ⟨_, _, Notation.source_loads h1, Notation.source_loads h2, h3⟩
  | given _ _ _ h1 h2 h3 => exact ⟨_, _, Notation.given_loads h1, Notation.given_loads h2, h3⟩
  | length hm h => exact (apart_mem hm h hn n4).elim
  | limits h => exact (apart h hn n5).elim
  | limit hm h => exact (apart_mem hm h hn n6).elim
  | padding h => exact (apart h hn n7).elim

theorem inv_length {c c' : Expr} {n : String} (h : Option' P E a b c c') (hm : n ∈ ["data-dy", "data-size-y"])
    (hn : nameOf c = some n.toList) : ∃ vs vs', dataLoadSimple P.readFile (argsOf c) = (vs, .ok ()) ∧
      dataLoadSimple P.readFile (argsOf c') = (vs', .ok ()) ∧ Numbers P (a * ·) vs vs' := by
  have no : ∀ n ∈ ["data-dy", "data-size-y"], n ∈ vertical ∧ "data-y" ≠ n ∧
    n ∉ ["data-y-low", "data-y-high"] ∧ "limit-y" ≠ n ∧ n ∉ ["limit-y-min", "limit-y-max"] ∧ "scale-y-padding" ≠ n := by decide
  obtain ⟨n1, n3, n4, n5, n6, n7⟩ := no n hm
  cases h with
  | same h => exact (not_same hn h n1).elim
  | source h => exact (apart h hn n3).elim
  | given hm h => exact (apart_mem hm h hn n4).elim
  | length _ _ _ h1 h2 h3 => exact ⟨_, _, Notation.given_loads h1, Notation.given_loads h2, h3⟩
  | limits h => exact (apart h hn n5).elim
  | limit hm h => exact (apart_mem hm h hn n6).elim
  | padding h => exact (apart h hn n7).elim

theorem scale_entry {p : String × Effect Scale} (hp : p ∈ scaleY P E) {c c' : Expr} (hc : Option' P E a b c c')
    (hn : nameOf c = some (String.toList p.1)) {s s₁ : Scale} (hk : s.kind = .linear) (h : p.2 (argsOf c) s s₁) :
    p.2 (argsOf c') (conv a b s) (conv a b s₁) ∧ s₁.kind = .linear ∧ (Limited s → Limited s₁) := by
  simp only [scaleY, List.mem_cons, List.not_mem_nil, or_false] at hp
  rcases hp with rfl | rfl | rfl | rfl | rfl
  · obtain ⟨x, y, x', y', lo, hi, h1, h2, h3, h4, h5, h6⟩ := inv_limits hc hn
    obtain ⟨u, v, lo', hi', g1, g2, g3, rfl⟩ := h
    rw [h1] at g1
    cases g1
    rw [h3] at g2
    rw [h4] at g3
    cases g2
    cases g3
    exact ⟨⟨x', y', _, _, h2, h5, h6, rfl⟩, hk, fun _ => ⟨.inl (by simp), .inl (by simp)⟩⟩
  · obtain ⟨v, h1, h2⟩ := inv_limit (n := "limit-y-min") hc (by decide) hn
    obtain ⟨w, h3, rfl⟩ := h
    cases number_unique h1 h3
    exact ⟨⟨_, h2, rfl⟩, hk, fun h => ⟨.inl (by simp), h.2⟩⟩
  · obtain ⟨v, h1, h2⟩ := inv_limit (n := "limit-y-max") hc (by decide) hn
    obtain ⟨w, h3, rfl⟩ := h
    cases number_unique h1 h3
    exact ⟨⟨_, h2, rfl⟩, hk, fun h => ⟨h.1, .inl (by simp)⟩⟩
  · obtain ⟨rfl, hw⟩ := inv_words hc hn
    obtain ⟨h1, h2⟩ := scale_words (a := a) (b := b) hw hk h
    refine ⟨h1, h2, fun hl => ?_⟩
    have key : ∀ {args : List Expr} {s s₁ : Scale}, ScaleWords P args s s₁ → Limited s → Limited s₁ := by
      intro args s s₁ h
      induction h with
      | nil => exact id
      | cons h _ ih =>
        intro hl
        refine ih ?_
        cases h <;> exact hl
    exact key h hl
  · obtain ⟨v, h1, h2⟩ := inv_padding hc hn
    obtain ⟨w, h3, rfl⟩ := h
    cases number_unique h1 h3
    exact ⟨⟨_, h2, rfl⟩, hk, fun h => h⟩

/-- The scales of a plot in other units. -/
def convS (a b : ℝ) (s : Scales) : Scales := ⟨s.x, conv a b s.y⟩

theorem scales_conv {cs cs' : List Expr} (hc : List.Forall₂ (Option' P E a b) cs cs') {s s₁ : Scales} (h : ScalesMeans P E cs s s₁)
    (hk : s.y.kind = .linear) : ScalesMeans P E cs' (convS a b s) (convS a b s₁) ∧ s₁.y.kind = .linear ∧ (Limited s.y → Limited s₁.y) := by
  obtain ⟨y, h1, rfl, h2, h3⟩ := acts_sim (ρ := fun x x' => x' = conv a b x ∧ x.kind = .linear ∧ (Limited s.y → Limited x)) hc (by
    rintro p hp c c' hcc hn x _ y ⟨rfl, h1, h2⟩ h
    obtain ⟨h3, h4, h5⟩ := scale_entry hp hcc hn h1 h
    exact ⟨_, h3, rfl, h4, fun hl => h5 (h2 hl)⟩) ⟨rfl, hk, id⟩ h.y
  exact ⟨⟨acts_same h.x hc (by unfold scaleX; othersY), h1⟩, h2, h3⟩

theorem data_conv {t : List (String × Effect (DataBuffer (Option ℝ)))} (ht : ∀ p ∈ t, p.1 ∈ ["data-y", "data-y-low", "data-y-high"] ∧ p.2 = AddData P)
    {cs cs' : List Expr} (hc : List.Forall₂ (Option' P E a b) cs cs') {d d₁ : DataBuffer (Option ℝ)} (h : Acts t cs d d₁)
    {d' : DataBuffer (Option ℝ)} (hd : Converted P (a * · + b) d d') : ∃ d₁', Acts t cs' d' d₁' ∧ Converted P (a * · + b) d₁ d₁' := by
  refine acts_sim (ρ := Converted P (a * · + b)) hc ?_ hd h
  intro p hp c c' hcc hn x x' y hx hy
  obtain ⟨h1, h2⟩ := ht p hp
  rw [h2] at hy ⊢
  obtain ⟨vs, vs', h3, h4, h5⟩ := inv_data hcc h1 hn
  obtain ⟨us, h6, rfl⟩ := hy
  rw [h3] at h6
  cases h6
  exact ⟨_, ⟨vs', h4, rfl⟩, converted_add hx h5⟩

theorem length_conv {t : List (String × Effect (DataBuffer (Option ℝ)))} (ht : ∀ p ∈ t, p.1 ∈ ["data-dy", "data-size-y"] ∧ p.2 = AddData P)
    {cs cs' : List Expr} (hc : List.Forall₂ (Option' P E a b) cs cs') {d d₁ : DataBuffer (Option ℝ)} (h : Acts t cs d d₁)
    {d' : DataBuffer (Option ℝ)} (hd : Converted P (a * ·) d d') : ∃ d₁', Acts t cs' d' d₁' ∧ Converted P (a * ·) d₁ d₁' := by
  refine acts_sim (ρ := Converted P (a * ·)) hc ?_ hd h
  intro p hp c c' hcc hn x x' y hx hy
  obtain ⟨h1, h2⟩ := ht p hp
  rw [h2] at hy ⊢
  obtain ⟨vs, vs', h3, h4, h5⟩ := inv_length hcc h1 hn
  obtain ⟨us, h6, rfl⟩ := hy
  rw [h3] at h6
  cases h6
  exact ⟨_, ⟨vs', h4, rfl⟩, converted_add hx h5⟩

/-! ## Data by file and columns -/

theorem never {c c' : Expr} (h : Option' P E a b c c') {n : String} (hn : n ∈ ["data", "data-format", "data-size"]) :
    nameOf c ≠ some (String.toList n) := by
  intro h'
  have no : ∀ n ∈ ["data", "data-format", "data-size"], "data-y" ≠ n ∧ n ∉ ["data-y-low", "data-y-high"] ∧ n ∉ ["data-dy", "data-size-y"] ∧
    "limit-y" ≠ n ∧ n ∉ ["limit-y-min", "limit-y-max"] ∧ "scale-y-padding" ≠ n := by decide
  obtain ⟨n3, n1, n4, n5, n6, n7⟩ := no n hn
  cases h with
  | same h => exact h n (List.mem_append_right _ hn) h'
  | source h => exact (apart h h' n3).elim
  | given hm h => exact (apart_mem hm h h' n1).elim
  | length hm h => exact (apart_mem hm h h' n4).elim
  | limits h => exact (apart h h' n5).elim
  | limit hm h => exact (apart_mem hm h h' n6).elim
  | padding h => exact (apart h h' n7).elim

/-- Columns with the converted values. -/
def RefConv (P : PlotEnv φ) (a b : ℝ) (r r' : Option Expr) : Prop :=
  ∃ vs vs', loadInlineRef P.readFile r = (vs, .ok ()) ∧ loadInlineRef P.readFile r' = (vs', .ok ()) ∧ Numbers P (a * · + b) vs vs'

theorem ref_entry {c c' : Expr} (h : Option' P E a b c c') (hn : nameOf c = some "data-y".toList) :
    RefConv P a b (argsOf c).head? (argsOf c').head? := by
  have key : ∀ {args : List Expr} {vs : List Str}, Source P args vs → loadInlineRef P.readFile args.head? = (vs, .ok ()) := by
    intro args vs h
    obtain ⟨e, h1, h2⟩ := Notation.source_head h
    obtain ⟨l, rfl⟩ := Notation.source_list h2
    rw [h1]
    exact Notation.source_loads h2
  cases h with
  | same h => exact (not_same hn h (by decide)).elim
  | source _ _ h1 h2 h3 => exact ⟨_, _, key h1, key h2, h3⟩
  | given hm h => exact (apart_mem hm h hn (by decide)).elim
  | length hm h => exact (apart_mem hm h hn (by decide)).elim
  | limits h => exact (apart h hn (by decide)).elim
  | limit hm h => exact (apart_mem hm h hn (by decide)).elim
  | padding h => exact (apart h hn (by decide)).elim

theorem refs_conv {cs cs' : List Expr} (hc : List.Forall₂ (Option' P E a b) cs cs') {r : DataRefs} (h : DataMeans cs Defaults.noRefs r) :
    ∃ x', DataMeans cs' Defaults.noRefs { r with refY := x' } ∧ RefConv P a b r.refY x' ∧ r.path = [] := by
  obtain ⟨x', h1, h2⟩ := acts_sim (ρ := RefConv P a b) hc (by
    intro p hp c c' hcc hn x x' y _ hy
    obtain ⟨m, hm, rfl⟩ := List.mem_map.1 hp
    rw [List.mem_singleton] at hm
    subst hm
    have hy : y = (argsOf c).head? := hy
    exact ⟨_, rfl, hy ▸ ref_entry hcc hn⟩) (show RefConv P a b none none from ⟨[], [], rfl, rfl, .nil⟩) h.y
  refine ⟨x', ⟨last_same h.path hc (by othersY), last_same h.format hc (by othersY), last_same h.x hc (by othersY), h1⟩, h2, ?_⟩
  refine unused h.path ?_
  intro c hcm p hp
  obtain ⟨m, hm, rfl⟩ := List.mem_map.1 hp
  rw [List.mem_singleton] at hm
  subst hm
  obtain ⟨c', h3⟩ := left_mem hc hcm
  exact never h3 (by decide)

theorem lines_load {r : DataRefs} {y' : Option Expr} (hr : RefConv P a b r.refY y') (hp : r.path = [])
    {d d' e x y : DataBuffer (Option ℝ)} (hd : Converted P (a * · + b) d d') {g g' : List ℕ} {u : Unit}
    (h : dataLoadPolylines2 P.readFile P.geoLines r.path r.format r.refX r.refY e d g = ((x, y, g'), .ok u)) :
    ∃ z, dataLoadPolylines2 P.readFile P.geoLines r.path r.format r.refX y' e d' g = ((x, z, g'), .ok u) ∧
      Converted P (a * · + b) y z := by
  obtain ⟨vs, vs', h1, h2, h3⟩ := hr
  unfold dataLoadPolylines2 at h ⊢
  rw [hp] at h ⊢
  rw [h1] at h
  rw [h2]
  rcases hx : loadInlineRef P.readFile r.refX with ⟨ws, rc⟩
  rw [hx] at h
  cases rc with
  | ok =>
    simp only [List.isEmpty_nil, if_true] at h ⊢
    cases h
    exact ⟨_, rfl, converted_add hd h3⟩
  | error | thrown | undefined =>
    simp only [List.isEmpty_nil, if_true] at h
    have := (Prod.mk.inj h).2
    cases this

theorem points_load {r : DataRefs} {y' : Option Expr} (hr : RefConv P a b r.refY y') (hp : r.path = [])
    {d d' e x y : DataBuffer (Option ℝ)} (hd : Converted P (a * · + b) d d') {u : Unit}
    (h : dataLoadPoints2 P.readFile P.geoPoints r.path r.format r.refX r.refY e d = ((x, y), .ok u)) :
    ∃ z, dataLoadPoints2 P.readFile P.geoPoints r.path r.format r.refX y' e d' = ((x, z), .ok u) ∧
      Converted P (a * · + b) y z := by
  obtain ⟨vs, vs', h1, h2, h3⟩ := hr
  unfold dataLoadPoints2 at h ⊢
  rw [hp] at h ⊢
  rw [h1] at h
  rw [h2]
  rcases hx : loadInlineRef P.readFile r.refX with ⟨ws, rc⟩
  rw [hx] at h
  cases rc with
  | ok =>
    simp only [List.isEmpty_nil, if_true] at h ⊢
    cases h
    exact ⟨_, rfl, converted_add hd h3⟩
  | error | thrown | undefined =>
    simp only [List.isEmpty_nil, if_true] at h
    have := (Prod.mk.inj h).2
    cases this

/-! ## What is accepted -/

/-- The option takes the other arguments, too. -/
def Takes' (P : PlotEnv φ) (E : ReadEnv) (a b : ℝ) (p : String × (List Expr → Prop)) : Prop :=
  ∀ c c', Option' P E a b c c' → nameOf c = some (String.toList p.1) → p.2 (argsOf c) → p.2 (argsOf c')

theorem takes_other {n : String} {A : List Expr → Prop} (h : n ∉ vertical) : Takes' P E a b (n, A) :=
  fun _ _ hc hn hA => by rw [option_eq hc hn h]; exact hA

theorem takes_anything {n : String} : Takes' P E a b (n, anything) := fun _ _ _ _ _ => trivial

theorem takes_data {n : String} (h : n ∈ ["data-y", "data-y-low", "data-y-high"]) : Takes' P E a b (n, Does (AddData P)) :=
  fun _ _ hc hn _ _ => by
    obtain ⟨vs, vs', _, h1, _⟩ := inv_data hc h hn
    exact ⟨_, vs', h1, rfl⟩

theorem takes_length {n : String} (h : n ∈ ["data-dy", "data-size-y"]) : Takes' P E a b (n, Does (AddData P)) :=
  fun _ _ hc hn _ _ => by
    obtain ⟨vs, vs', _, h1, _⟩ := inv_length hc h hn
    exact ⟨_, vs', h1, rfl⟩

theorem takes_limit {n : String} (h : n ∈ ["limit-y-min", "limit-y-max"]) : Takes' P E a b (n, Has (IsNumber E)) :=
  fun _ _ hc hn _ => by
    obtain ⟨v, _, h1⟩ := inv_limit hc h hn
    exact ⟨_, h1⟩

theorem takes_padding : Takes' P E a b ("scale-y-padding", Has (IsNumber E)) :=
  fun _ _ hc hn _ => by
    obtain ⟨v, _, h1⟩ := inv_padding hc hn
    exact ⟨_, h1⟩

theorem takes_both : Takes' P E a b ("limit-y", Does (scaleLimits E)) :=
  fun _ _ hc hn _ s => by
    obtain ⟨x, y, x', y', lo, hi, h1, h2, h3, h4, h5, h6⟩ := inv_limits hc hn
    exact ⟨_, x', y', _, _, h2, h5, h6, rfl⟩

macro "takenY" : tactic => `(tactic| repeat (first
  | exact List.forall_mem_nil _
  | refine List.forall_mem_cons.2 ⟨takes_other (by decide +kernel), ?_⟩
  | refine List.forall_mem_cons.2 ⟨takes_anything, ?_⟩
  | refine List.forall_mem_cons.2 ⟨takes_both, ?_⟩
  | refine List.forall_mem_cons.2 ⟨takes_limit (by decide +kernel), ?_⟩
  | refine List.forall_mem_cons.2 ⟨takes_padding, ?_⟩
  | refine List.forall_mem_cons.2 ⟨takes_data (by decide +kernel), ?_⟩
  | refine List.forall_mem_cons.2 ⟨takes_length (by decide +kernel), ?_⟩))

theorem accepted_conv {t : Takes} {cs cs' : List Expr} (h : Acceptable t cs)
    (hc : List.Forall₂ (Option' P E a b) cs cs') (ht : ∀ p ∈ t, Takes' P E a b p) : Acceptable t cs' := by
  induction hc with
  | nil => exact h
  | cons hcc _ ih =>
    intro c hm
    rcases List.mem_cons.1 hm with rfl | hm
    · obtain ⟨n, A, h1, h2, h3⟩ := h _ (.head _)
      exact ⟨n, A, h1, (option_name hcc).trans h2, ht _ h1 _ _ hcc h2 h3⟩
    · exact ih (fun x hx => h x (.tail _ hx)) c hm

theorem takes_refs : ∀ p ∈ takesData, Takes' P E a b p := by unfold takesData; takenY

theorem takes_scales : ∀ p ∈ takesScales P E, Takes' P E a b p := by
  unfold takesScales takesLimits; refine List.forall_mem_append.2 ⟨?_, ?_⟩ <;> takenY

theorem takes_colors : ∀ p ∈ takesColors P E, Takes' P E a b p := by unfold takesColors; takenY

theorem takes_sizes : ∀ p ∈ takesSizes P E, Takes' P E a b p := by unfold takesSizes; takenY

end
end Clip.Units.Vertical
