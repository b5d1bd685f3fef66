import Verif.Spec.Sources
import Verif.Props.Data
import Verif.Props.Csv
set_option linter.unusedSimpArgs false
/-! # Options with other notations of their values: every setting is the same -/
namespace Clip.Notation
open Settings Drawing DataSpec Options
variable {φ : Type} {P : PlotEnv φ} {E : ReadEnv}

theorem word_value {e : Expr} {w : String} (h : IsWord e w) : e.isValue = true ∧ e.getValue = w.toList := by
  rcases h with rfl | rfl <;> exact ⟨rfl, rfl⟩

theorem text_value {e : Expr} {v : Str} (h : e = .literal v ∨ e = .value v) : e.isValue = true ∧ e.getValue = v := by
  rcases h with rfl | rfl <;> exact ⟨rfl, rfl⟩

theorem texts_value {ws : List Expr} {vs : List Str} (h : List.Forall₂ (fun e v => e = .literal v ∨ e = .value v) ws vs) :
    ws.map Expr.getValue = vs := by
  induction h with
  | nil => rfl
  | cons h _ ih => rw [List.map_cons, (text_value h).2, ih]

theorem list_ne_csv : ("list".toList == "csv".toList) = false := by decide

theorem head_word {k : Expr} {w : String} (h : IsWord k w) (es rest : List Expr) (v : Str) :
    exprIsListHead (.list (k :: es) :: rest) v = (w.toList == v) := by
  show (k.isValue && k.getValue == v) = _
  rw [(word_value h).1, (word_value h).2, Bool.true_and]

theorem source_loads {args : List Expr} {vs : List Str} (h : Source P args vs) :
    dataLoadSimple P.readFile args = (vs, .ok ()) := by
  cases h with
  | @listed k ws rest vs hk hw =>
    unfold dataLoadSimple
    rw [head_word hk, head_word hk, list_ne_csv]
    simp only [beq_self_eq_true, if_true, Bool.false_eq_true, if_false]
    show (dataLoadInline ws, _) = _
    rw [dataLoadInline, texts_value hw]
  | @column k p c rest path name text headers rows idx vs hk hp hc hf ht hi hv =>
    refine C51_csv_column P.readFile k p c (word_value hk).1 (word_value hk).2 (text_value hp).1 (text_value hc).1 text
      (by rw [(text_value hp).2]; exact hf) (headers :: rows) ?_ vs ?_ rest
    · unfold csvParseAll
      rw [(C11_csv_accepts_iff text (headers :: rows) (text.length + 1) (by omega)).2 ht]; rfl
    · obtain ⟨h1, h2, h3⟩ := hi
      have hlen : ∀ r ∈ rows, idx < r.length := by
        intro r hr
        have hm : r[idx]? ∈ vs.map some := hv ▸ List.mem_map_of_mem hr
        obtain ⟨v, _, he⟩ := List.mem_map.1 hm
        exact (List.getElem?_eq_some_iff.1 he.symm).1
      obtain ⟨us, hu, hu'⟩ := C12_extract_column headers rows name idx h1 h2 h3 hlen
      rw [(text_value hc).2, hu]
      have : us = vs := by
        have : us.map some = vs.map some := hu'.trans hv
        exact List.map_injective_iff.2 (Option.some_injective _) this
      rw [this]

theorem given_loads {args : List Expr} {vs : List Str} (h : Given P args vs) :
    dataLoadSimple P.readFile args = (vs, .ok ()) := by
  rcases h with h | h
  · exact source_loads h
  · have key : ∀ v, exprIsListHead args v = false := by
      intro v
      cases h with
      | nil => rfl
      | cons h _ => rcases h with rfl | rfl <;> rfl
    unfold dataLoadSimple
    rw [key, key]
    simp only [Bool.false_eq_true, if_false]
    rw [dataLoadInline, texts_value h]

theorem color_unique {args : List Expr} {k k' : Color} (h : IsColor E args k) (h' : IsColor E args k') : k = k' := by
  obtain ⟨e, r, rfl, h⟩ := h
  obtain ⟨e', r', he, h'⟩ := h'
  cases he
  exact Outcome.ok.inj ((h k).symm.trans (h' k))

theorem size_unique {args : List Expr} {v v' : ℝ} (h : IsSize E args v) (h' : IsSize E args v') : v = v' := by
  obtain ⟨e, r, rfl, h⟩ := h
  obtain ⟨e', r', he, h'⟩ := h'
  cases he
  exact Except.ok.inj (h.symm.trans h')

theorem option_name {c c' : Expr} (h : SameOption P E c c') : nameOf c' = nameOf c := by
  cases h with
  | same => rfl
  | source _ h h' => rw [h, h']
  | given _ h h' => rw [h, h']
  | color _ h h' => rw [h, h']
  | size _ h h' => rw [h, h']

theorem option_symm {c c' : Expr} (h : SameOption P E c c') : SameOption P E c' c := by
  cases h with
  | same => exact .same _
  | source a b c d e => exact .source a c b e d
  | given a b c d e => exact .given a c b e d
  | color a b c d e => exact .color a c b e d
  | size a b c d e => exact .size a c b e d

/-- The option has the same effect in the other notation. -/
def Keeps (P : PlotEnv φ) (E : ReadEnv) {α : Type} (p : String × Effect α) : Prop :=
  ∀ c c', SameOption P E c c' → nameOf c = some (String.toList p.1) → ∀ a b, p.2 (argsOf c) a b → p.2 (argsOf c') a b

def replaced : List String := sourceOptions ++ givenOptions ++ colorOptions ++ sizeOptions

theorem names_apart : (∀ n ∈ colorOptions, n ∉ sourceOptions ++ givenOptions ++ sizeOptions) ∧
    (∀ n ∈ sizeOptions, n ∉ sourceOptions ++ givenOptions ++ colorOptions) ∧
    (∀ n ∈ sourceOptions ++ givenOptions, n ∉ sizeOptions ++ colorOptions) := by decide +kernel

theorem same_name {c : Expr} {m n : String} (h : nameOf c = some (String.toList m)) (h' : nameOf c = some (String.toList n)) :
    m = n := String.toList_inj.1 (Option.some.inj (h.symm.trans h'))

theorem keeps_other {α : Type} {n : String} {f : Effect α} (h : n ∉ replaced) : Keeps P E (n, f) := by
  intro c c' hc hn a b hf
  have hn : nameOf c = some (String.toList n) := hn
  simp only [replaced, List.mem_append, not_or] at h
  cases hc with
  | same => exact hf
  | source hm h1 => exact absurd (same_name h1 hn ▸ hm) h.1.1.1
  | given hm h1 => exact absurd (same_name h1 hn ▸ hm) h.1.1.2
  | color hm h1 => exact absurd (same_name h1 hn ▸ hm) h.1.2
  | size hm h1 => exact absurd (same_name h1 hn ▸ hm) h.2

theorem keeps_color {α : Type} {p : String × Effect α} (h : p.1 ∈ colorOptions)
    (hf : ∀ args args' k a b, IsColor E args k → IsColor E args' k → p.2 args a b → p.2 args' a b) : Keeps P E p := by
  have h' := names_apart.1 _ h
  simp only [List.mem_append, not_or] at h'
  intro c c' hc hn a b hb
  cases hc with
  | same => exact hb
  | source hm h1 => exact absurd (same_name h1 hn ▸ hm) h'.1.1
  | given hm h1 => exact absurd (same_name h1 hn ▸ hm) h'.1.2
  | color hm h1 h2 h3 h4 => exact hf _ _ _ _ _ h3 h4 hb
  | size hm h1 => exact absurd (same_name h1 hn ▸ hm) h'.2

theorem keeps_size {α : Type} {p : String × Effect α} (h : p.1 ∈ sizeOptions)
    (hf : ∀ args args' k a b, IsSize E args k → IsSize E args' k → p.2 args a b → p.2 args' a b) : Keeps P E p := by
  have h' := names_apart.2.1 _ h
  simp only [List.mem_append, not_or] at h'
  intro c c' hc hn a b hb
  cases hc with
  | same => exact hb
  | source hm h1 => exact absurd (same_name h1 hn ▸ hm) h'.1.1
  | given hm h1 => exact absurd (same_name h1 hn ▸ hm) h'.1.2
  | color hm h1 => exact absurd (same_name h1 hn ▸ hm) h'.2
  | size hm h1 h2 h3 h4 => exact hf _ _ _ _ _ h3 h4 hb

theorem keeps_data {n : String} (h : n ∈ sourceOptions ++ givenOptions) : Keeps P E (n, AddData P) := by
  have h' := names_apart.2.2 _ h
  simp only [List.mem_append, not_or] at h'
  intro c c' hc hn a b hb
  have hn : nameOf c = some (String.toList n) := hn
  have key : ∀ {vs : List Str}, dataLoadSimple P.readFile (argsOf c) = (vs, .ok ()) →
      dataLoadSimple P.readFile (argsOf c') = (vs, .ok ()) → AddData P (argsOf c') a b := by
    intro vs h1 h2
    obtain ⟨us, h3, h4⟩ := hb
    rw [h1] at h3
    cases h3
    exact ⟨vs, h2, h4⟩
  cases hc with
  | same => exact hb
  | source hm h1 h2 h3 h4 => exact key (source_loads h3) (source_loads h4)
  | given hm h1 h2 h3 h4 => exact key (given_loads h3) (given_loads h4)
  | color hm h1 => exact absurd (same_name h1 hn ▸ hm) h'.2
  | size hm h1 => exact absurd (same_name h1 hn ▸ hm) h'.1

theorem keeps_sets_color {n : String} (h : n ∈ colorOptions) : Keeps P E (n, sets (IsColor E)) :=
  keeps_color h fun _ _ _ _ _ h1 h2 h3 => color_unique h1 h3 ▸ h2

theorem keeps_stroke_color {n : String} (h : n ∈ colorOptions) : Keeps P E (n, Options.strokeColor E) :=
  keeps_color h fun _ _ _ _ _ h1 h2 ⟨k, h3, h4⟩ => ⟨k, color_unique h1 h3 ▸ h2, h4⟩

theorem keeps_fill_color {n : String} (h : n ∈ colorOptions) : Keeps P E (n, fillColor E) :=
  keeps_color h fun _ _ _ _ _ h1 h2 ⟨k, h3, h4⟩ => ⟨k, color_unique h1 h3 ▸ h2, h4⟩

theorem keeps_sets_size {n : String} (h : n ∈ sizeOptions) : Keeps P E (n, sets (IsSize E)) :=
  keeps_size h fun _ _ _ _ _ h1 h2 h3 => size_unique h1 h3 ▸ h2

theorem keeps_stroke_width {n : String} (h : n ∈ sizeOptions) : Keeps P E (n, Options.strokeWidth E) :=
  keeps_size h fun _ _ _ _ _ h1 h2 ⟨k, h3, h4⟩ => ⟨k, size_unique h1 h3 ▸ h2, h4⟩

macro "kept" : tactic => `(tactic| first
  | exact keeps_other (by decide +kernel)
  | exact keeps_sets_color (by decide +kernel)
  | exact keeps_sets_size (by decide +kernel)
  | exact keeps_stroke_color (by decide +kernel)
  | exact keeps_stroke_width (by decide +kernel)
  | exact keeps_fill_color (by decide +kernel)
  | exact keeps_data (by decide +kernel))

macro "kepts" : tactic => `(tactic| repeat (first
  | exact List.forall_mem_nil _
  | refine List.forall_mem_cons.2 ⟨by kept, ?_⟩))

theorem acts_sim {α : Type} {ρ : α → α → Prop} {t : List (String × Effect α)} {cs cs' : List Expr}
    (hc : List.Forall₂ (SameOption P E) cs cs')
    (ht : ∀ p ∈ t, ∀ c c', SameOption P E c c' → nameOf c = some (String.toList p.1) → ∀ a a' b, ρ a a' → p.2 (argsOf c) a b →
      ∃ b', p.2 (argsOf c') a' b' ∧ ρ b b') {a a' b : α} (ha : ρ a a') (h : Acts t cs a b) : ∃ b', Acts t cs' a' b' ∧ ρ b b' := by
  induction h generalizing cs' a' with
  | nil => cases hc; exact ⟨a', .nil _, ha⟩
  | act h1 h2 h3 _ ih =>
    cases hc with
    | cons hcc hcs =>
      obtain ⟨b', h4, h5⟩ := ht _ h2 _ _ hcc h1 _ _ _ ha h3
      obtain ⟨d', h6, h7⟩ := ih hcs h5
      exact ⟨d', .act ((option_name hcc).trans h1) h2 h4 h6, h7⟩
  | skip h1 _ ih =>
    cases hc with
    | cons hcc hcs =>
      obtain ⟨d', h6, h7⟩ := ih hcs ha
      exact ⟨d', .skip (fun p hp => by rw [option_name hcc]; exact h1 p hp) h6, h7⟩

theorem acts_same {α : Type} {t : List (String × Effect α)} {cs cs' : List Expr} {a b : α} (h : Acts t cs a b)
    (hc : List.Forall₂ (SameOption P E) cs cs') (ht : ∀ p ∈ t, Keeps P E p) : Acts t cs' a b := by
  obtain ⟨b', h1, rfl⟩ := acts_sim (ρ := Eq) hc (fun p hp c c' hcc hn a a' b hb hf =>
    ⟨b, hb ▸ ht p hp c c' hcc hn _ _ hf, rfl⟩) rfl h
  exact h1

theorem last_same {α : Type} {R : List Expr → α → Prop} {names : List String} {cs cs' : List Expr} {a b : α}
    (h : LastOf R names cs a b) (hc : List.Forall₂ (SameOption P E) cs cs') (ht : ∀ n ∈ names, Keeps P E (n, sets R)) :
    LastOf R names cs' a b :=
  acts_same h hc (by
    intro p hp
    obtain ⟨n, hn, rfl⟩ := List.mem_map.1 hp
    exact ht n hn)

theorem known_same {names : List String} {cs cs' : List Expr} (h : Known names cs)
    (hc : List.Forall₂ (SameOption P E) cs cs') : Known names cs' := by
  induction hc with
  | nil => exact h
  | cons hcc _ ih =>
    intro c hm
    rcases List.mem_cons.1 hm with rfl | hm
    · rw [option_name hcc]; exact h _ (.head _)
    · exact ih (fun x hx => h x (.tail _ hx)) c hm

/-- The option takes the other notation, too. -/
def Takes' (P : PlotEnv φ) (E : ReadEnv) (p : String × (List Expr → Prop)) : Prop :=
  ∀ c c', SameOption P E c c' → nameOf c = some (String.toList p.1) → p.2 (argsOf c) → p.2 (argsOf c')

theorem takes_has {α : Type} {n : String} {R : List Expr → α → Prop} (h : Keeps P E (n, sets R)) : Takes' P E (n, Has R) :=
  fun c c' hc hn ⟨v, hv⟩ => ⟨v, h c c' hc hn v v hv⟩

theorem takes_does {α : Type} {n : String} {f : Effect α} (h : Keeps P E (n, f)) : Takes' P E (n, Does f) :=
  fun c c' hc hn hd a => (hd a).imp fun b hb => h c c' hc hn a b hb

theorem takes_anything {n : String} : Takes' P E (n, anything) := fun _ _ _ _ _ => trivial

macro "taken" : tactic => `(tactic| repeat (first
  | exact List.forall_mem_nil _
  | refine List.forall_mem_cons.2 ⟨takes_anything, ?_⟩
  | refine List.forall_mem_cons.2 ⟨takes_has (by kept), ?_⟩
  | refine List.forall_mem_cons.2 ⟨takes_does (by kept), ?_⟩))

theorem accepted_same {t : List (String × (List Expr → Prop))} {cs cs' : List Expr} (h : Acceptable t cs)
    (hc : List.Forall₂ (SameOption P E) cs cs') (ht : ∀ p ∈ t, Takes' P E p) : Acceptable t cs' := by
  induction hc with
  | nil => exact h
  | cons hcc _ ih =>
    intro c hm
    rcases List.mem_cons.1 hm with rfl | hm
    · obtain ⟨n, A, h1, h2, h3⟩ := h _ (.head _)
      exact ⟨n, A, h1, (option_name hcc).trans h2, ht _ h1 _ _ hcc h2 h3⟩
    · exact ih (fun x hx => h x (.tail _ hx)) c hm

theorem takes_data : ∀ p ∈ takesData, Takes' P E p := by unfold takesData; taken

theorem takes_limits : ∀ p ∈ takesLimits P E, Takes' P E p := by unfold takesLimits; taken

theorem takes_scales : ∀ p ∈ takesScales P E, Takes' P E p := by
  unfold takesScales; refine List.forall_mem_append.2 ⟨takes_limits, ?_⟩; taken

theorem takes_colors : ∀ p ∈ takesColors P E, Takes' P E p := by unfold takesColors; taken

theorem takes_sizes : ∀ p ∈ takesSizes P E, Takes' P E p := by unfold takesSizes; taken

/-- The same data, listed or from a file. -/
def RefLike (P : PlotEnv φ) (r r' : Option Expr) : Prop :=
  r = r' ∨ ∃ e e' vs, r = some e ∧ r' = some e' ∧ Source P [e] vs ∧ Source P [e'] vs

theorem source_head {args : List Expr} {vs : List Str} (h : Source P args vs) : ∃ e, args.head? = some e ∧ Source P [e] vs := by
  cases h with
  | listed h1 h2 => exact ⟨_, rfl, .listed h1 h2⟩
  | column h1 h2 h3 h4 h5 h6 h7 => exact ⟨_, rfl, .column h1 h2 h3 h4 h5 h6 h7⟩

theorem ref_same {n : String} (hn : n ∈ sourceOptions) {cs cs' : List Expr} (hc : List.Forall₂ (SameOption P E) cs cs')
    {a b : Option Expr} (h : LastOf (fun args v => v = args.head?) [n] cs a b) :
    ∃ b', LastOf (fun args v => v = args.head?) [n] cs' a b' ∧ RefLike P b b' := by
  refine acts_sim hc ?_ (Or.inl rfl) h
  intro p hp c c' hcc hcn a a' b _ hb
  obtain ⟨m, hm, rfl⟩ := List.mem_map.1 hp
  rw [List.mem_singleton] at hm
  subst hm
  have hcn : nameOf c = some (String.toList m) := hcn
  have hb : b = (argsOf c).head? := hb
  refine ⟨(argsOf c').head?, rfl, ?_⟩
  have h' := names_apart.2.2 _ (List.mem_append_left _ hn)
  have h'' : ∀ n ∈ sourceOptions, n ∉ givenOptions := by decide +kernel
  simp only [List.mem_append, not_or] at h'
  cases hcc with
  | same => exact .inl hb
  | source hm h1 h2 h3 h4 =>
    obtain ⟨e, he, h3⟩ := source_head h3
    obtain ⟨e', he', h4⟩ := source_head h4
    exact .inr ⟨e, e', _, hb.trans he, he', h3, h4⟩
  | given hm h1 => exact absurd (same_name h1 hcn ▸ hm) (h'' _ hn)
  | color hm h1 => exact absurd (same_name h1 hcn ▸ hm) h'.2
  | size hm h1 => exact absurd (same_name h1 hcn ▸ hm) h'.1

theorem source_list {e : Expr} {vs : List Str} (h : Source P [e] vs) : ∃ l, e = .list l := by
  cases h with
  | listed => exact ⟨_, rfl⟩
  | column => exact ⟨_, rfl⟩

theorem ref_loads {r r' : Option Expr} (h : RefLike P r r') : loadInlineRef P.readFile r' = loadInlineRef P.readFile r ∧
    ∀ d, columnKey d r' = columnKey d r := by
  rcases h with rfl | ⟨e, e', vs, rfl, rfl, h1, h2⟩
  · exact ⟨rfl, fun _ => rfl⟩
  · obtain ⟨l, rfl⟩ := source_list h1
    obtain ⟨l', rfl⟩ := source_list h2
    refine ⟨?_, fun _ => rfl⟩
    show dataLoadSimple _ _ = dataLoadSimple _ _
    rw [source_loads h1, source_loads h2]

/-- The same data. -/
structure RefsLike (P : PlotEnv φ) (r r' : DataRefs) : Prop where
  path : r'.path = r.path
  format : r'.format = r.format
  x : RefLike P r.refX r'.refX
  y : RefLike P r.refY r'.refY

theorem data_same {cs cs' : List Expr} (hc : List.Forall₂ (SameOption P E) cs cs') {a b : DataRefs} (h : DataMeans cs a b) :
    ∃ b', DataMeans cs' a b' ∧ RefsLike P b b' := by
  obtain ⟨x, h1, h2⟩ := ref_same (n := "data-x") (by decide) hc h.x
  obtain ⟨y, h3, h4⟩ := ref_same (n := "data-y") (by decide) hc h.y
  exact ⟨⟨b.path, b.format, x, y⟩, ⟨last_same h.path hc (by kepts), last_same h.format hc (by kepts), h1, h3⟩, rfl, rfl, h2, h4⟩

theorem points_same {r r' : DataRefs} (h : RefsLike P r r') (x y : DataBuffer (Option ℝ)) :
    dataLoadPoints2 P.readFile P.geoPoints r'.path r'.format r'.refX r'.refY x y =
      dataLoadPoints2 P.readFile P.geoPoints r.path r.format r.refX r.refY x y := by
  unfold dataLoadPoints2
  rw [(ref_loads h.x).1, (ref_loads h.y).1, h.path, h.format]

theorem lines_same {r r' : DataRefs} (h : RefsLike P r r') (x y : DataBuffer (Option ℝ)) (g : List Nat) :
    dataLoadPolylines2 P.readFile P.geoLines r'.path r'.format r'.refX r'.refY x y g =
      dataLoadPolylines2 P.readFile P.geoLines r.path r.format r.refX r.refY x y g := by
  unfold dataLoadPolylines2
  rw [(ref_loads h.x).1, (ref_loads h.y).1, h.path, h.format]
  simp only [(ref_loads h.x).2, (ref_loads h.y).2]

theorem scales_same {cs cs' : List Expr} (hc : List.Forall₂ (SameOption P E) cs cs') {a b : Scales} (h : ScalesMeans P E cs a b) :
    ScalesMeans P E cs' a b :=
  ⟨acts_same h.x hc (by unfold scaleX; kepts), acts_same h.y hc (by unfold scaleY; kepts)⟩

end Clip.Notation
