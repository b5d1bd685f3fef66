import Verif.Lemmas.EnlargeAxes
set_option linter.unusedSimpArgs false
/-! # Options at another resolution: all lengths are larger -/
namespace Clip.Enlarge
open Settings Drawing Pictures Options Whole
noncomputable section
variable {φ : Type} {k : ℝ} {P : PlotEnv φ} {E : ReadEnv} {z : LayerSize}

/-- The environment on a page of another size. -/
abbrev env (E : ReadEnv) (z : LayerSize) : ReadEnv := ⟨E.stod, z, E.palette⟩

structure Resized (k : ℝ) (E : ReadEnv) (z : LayerSize) : Prop where
  dpi : z.dpi = k * E.size.dpi
  em : layerSize z.fontSize z.dpi = k * layerSize E.size.fontSize E.size.dpi

theorem size_big (hz : Resized k E z) {args : List Expr} {v : ℝ} (hp : NotPixels E.stod args) (h : IsSize E args v) :
    IsSize (env E z) args (k * v) := by
  obtain ⟨e, rest, rfl, h⟩ := h
  refine ⟨e, rest, rfl, ?_⟩
  unfold exprToNumber at h ⊢
  by_cases he : e.isValue = true
  · simp only [he, Bool.not_true, Bool.false_eq_true, if_false] at h ⊢
    have hs : e = .literal e.getValue ∨ e = .value e.getValue := by
      cases e with
      | literal => exact .inl rfl
      | value => exact .inr rfl
      | list => cases he
    cases hst : E.stod e.getValue with
    | none => rw [hst] at h; cases h
    | some q =>
      obtain ⟨x, pos⟩ := q
      have hpx := hp e rest _ x pos rfl hs hst
      rw [hst] at h
      simp only [hst] at h ⊢
      by_cases h1 : pos = e.getValue.length
      · rw [if_pos h1] at h ⊢
        by_cases h2 : x = 0
        · rw [if_pos h2] at h ⊢
          cases h
          rw [mul_zero]
        · rw [if_neg h2] at h; cases h
      · rw [if_neg h1] at h ⊢
        cases hu : unitParse (e.getValue.drop pos) with
        | none => rw [hu] at h; cases h
        | some u =>
          rw [hu] at h
          simp only at h ⊢
          cases u <;> simp only [uconvSize] at h ⊢ <;> try cases h
          · refine congrArg Except.ok ?_
            unfold unitFromMm; rw [hz.dpi]; ring
          · exfalso
            unfold unitParse at hu
            split_ifs at hu with h1 h2 <;> first | exact hpx h2 | cases hu
          · refine congrArg Except.ok ?_
            unfold unitFromPt; rw [hz.dpi]; ring
          · refine congrArg Except.ok ?_
            unfold unitFromEm; rw [hz.em]; ring
          · refine congrArg Except.ok ?_
            unfold unitFromEm; rw [hz.em]; ring
  · simp only [he, Bool.not_false, if_true] at h
    cases h

/-- The option does the same to the larger settings. -/
def GrowsOn (Q : Expr → Prop) {α : Type} (g : α → α) (p q : String × Effect α) : Prop :=
  q.1 = p.1 ∧ ∀ c, Q c → nameOf c = some (String.toList p.1) → ∀ a b, p.2 (argsOf c) a b → q.2 (argsOf c) (g a) (g b)

abbrev Grows (stod : Str → Option (ℝ × Nat)) {α : Type} (g : α → α) (p q : String × Effect α) : Prop := GrowsOn (Plain stod) g p q

theorem acts_big {Q : Expr → Prop} {α : Type} {g : α → α} {t t' : List (String × Effect α)}
    (ht : List.Forall₂ (GrowsOn Q g) t t') {cs : List Expr} (hc : ∀ c ∈ cs, Q c) {a b : α} (h : Acts t cs a b) :
    Acts t' cs (g a) (g b) := by
  induction h with
  | nil => exact .nil _
  | @act c cs a b d n f h1 h2 h3 _ ih =>
    obtain ⟨q, hq, hn, hg⟩ : ∃ q ∈ t', GrowsOn Q g (n, f) q := by
      clear * - ht h2
      induction ht with
      | nil => cases h2
      | cons h _ ih =>
        rcases List.mem_cons.1 h2 with rfl | h2
        · exact ⟨_, .head _, h⟩
        · obtain ⟨q, h3, h4⟩ := ih h2
          exact ⟨q, .tail _ h3, h4⟩
    obtain ⟨m, f'⟩ := q
    have hn : m = n := hn
    subst hn
    exact .act h1 hq (hg c (hc c (.head _)) h1 _ _ h3) (ih fun x hx => hc x (.tail _ hx))
  | skip h1 _ ih =>
    refine .skip ?_ (ih fun x hx => hc x (.tail _ hx))
    intro q hq
    obtain ⟨p, hp, hn⟩ : ∃ p ∈ t, q.1 = p.1 := by
      clear * - ht hq
      induction ht with
      | nil => cases hq
      | cons h _ ih =>
        rcases List.mem_cons.1 hq with rfl | hq
        · exact ⟨_, .head _, h.1⟩
        · obtain ⟨p, h3, h4⟩ := ih hq
          exact ⟨p, .tail _ h3, h4⟩
    rw [hn]; exact h1 p hp

theorem last_big {stod : Str → Option (ℝ × Nat)} {α : Type} {g : α → α} {R R' : List Expr → α → Prop} {names : List String}
    (ht : ∀ n ∈ names, Grows stod g (n, sets R) (n, sets R')) {cs : List Expr} (hc : ∀ c ∈ cs, Plain stod c) {a b : α}
    (h : LastOf R names cs a b) : LastOf R' names cs (g a) (g b) := by
  refine acts_big ?_ hc h
  rw [List.forall₂_map_left_iff, List.forall₂_map_right_iff]
  clear h hc
  induction names with
  | nil => exact .nil
  | cons n ns ih => exact .cons (ht n (.head _)) (ih fun m hm => ht m (.tail _ hm))

theorem acts_unused {α : Type} {t : List (String × Effect α)} {cs : List Expr} {a b : α} (h : Acts t cs a b)
    (hc : ∀ c ∈ cs, ∀ p ∈ t, nameOf c ≠ some (String.toList p.1)) : b = a := by
  induction h with
  | nil => rfl
  | act h1 h2 _ _ _ => exact absurd h1 (hc _ (.head _) _ h2)
  | skip _ _ ih => exact ih fun x hx => hc x (.tail _ hx)

theorem unused {stod : Str → Option (ℝ × Nat)} {α : Type} {n : String} {f : Effect α} (hn : n ∈ pixelOptions) {cs : List Expr}
    (hc : ∀ c ∈ cs, Plain stod c) {a b : α} (h : Acts [(n, f)] cs a b) : b = a :=
  acts_unused h fun c hm p hp => by
    rw [List.mem_singleton] at hp
    subst hp
    exact (hc c hm).pixels n hn

theorem grows_size (hz : Resized k E z) {n : String} (hn : n ∈ lengthOptions) :
    Grows E.stod (k * ·) (n, sets (IsSize E)) (n, sets (IsSize (env E z))) :=
  ⟨rfl, fun _ hc h _ _ hb => size_big hz (hc.length n hn h) hb⟩

theorem grows_none {stod : Str → Option (ℝ × Nat)} {α : Type} {g : α → α} {f f' : Effect α} {n : String} (hn : n ∈ pixelOptions) :
    Grows stod g (n, f) (n, f') := ⟨rfl, fun _ hc h => absurd h (hc.pixels n hn)⟩

theorem grows_width (hz : Resized k E z) {n : String} (hn : n ∈ lengthOptions) :
    Grows E.stod (stroke k) (n, Options.strokeWidth E) (n, Options.strokeWidth (env E z)) := by
  refine ⟨rfl, fun c hc h a b hb => ?_⟩
  obtain ⟨v, h1, rfl⟩ := hb
  exact ⟨k * v, size_big hz (hc.length n hn h) h1, rfl⟩

theorem grows_color {n : String} : Grows E.stod (stroke k) (n, Options.strokeColor E) (n, Options.strokeColor (env E z)) :=
  ⟨rfl, fun _ _ _ _ _ ⟨v, h1, h2⟩ => ⟨v, h1, h2 ▸ rfl⟩⟩

theorem grows_fillColor {n : String} : Grows E.stod (fill k) (n, Options.fillColor E) (n, Options.fillColor (env E z)) :=
  ⟨rfl, fun _ _ _ _ _ ⟨v, h1, h2⟩ => ⟨v, h1, h2 ▸ rfl⟩⟩

theorem grows_border {n : String} : Grows E.stod (stroke k) (n, BorderStyle) (n, BorderStyle) := by
  refine ⟨rfl, ?_⟩
  rintro c _ _ a b (⟨h1, rfl⟩ | ⟨h1, rfl⟩)
  · exact .inl ⟨h1, by simp [stroke]⟩
  · exact .inr ⟨h1, rfl⟩

def strokeStyle' (k : ℝ) (s : StrokeStyle) : StrokeStyle := ⟨k * s.width, s.color, s.dash.map fun d => (k * d.1, d.2.map (k * ·))⟩

theorem style_big (s : StrokeState) : (stroke k s).style = strokeStyle' k s.style := by
  unfold stroke StrokeState.style strokeStyle'
  cases s.dashed <;> simp [measure, Function.comp_def]

theorem final_nil {α : Type} {read : List Expr → α → Prop} {name : Str} {a b : α} (h : Final read name [] a b) : b = a := h

theorem no_settings {args cmds : List Expr} {ws : List String} (hw : ∀ w ∈ ws, w ∈ ["hatch", "hatched", "dash", "dashed"])
    (h : CallsWith args ws cmds) (ho : ¬ OwnPattern args) : cmds = [] := by
  obtain ⟨key, rest, w, hm, hk, h | h⟩ := h
  · exact h.2
  · cases cmds with
    | nil => rfl
    | cons e es => exact absurd ⟨w, hw w hm, key, e, es, rest, hk, h⟩ ho

theorem pt_big (hz : Resized k E z) (v : ℝ) : Drawing.pt (env E z) v = k * Drawing.pt E v := by
  unfold Drawing.pt; rw [show (env E z).size.dpi = k * E.size.dpi from hz.dpi]; ring

theorem grows_style (hz : Resized k E z) {n : String} (hn : n ∈ patternOptions) :
    Grows E.stod (stroke k) (n, Options.strokeStyle E) (n, Options.strokeStyle (env E z)) := by
  refine ⟨rfl, fun c hc h a b hb => ?_⟩
  have ho := hc.pattern n hn h
  obtain ⟨h1, h2⟩ := hb
  refine ⟨?_, fun hd => by show k * _ = k * _; rw [h2 hd]⟩
  rw [style_big, style_big]
  generalize a.style = sa at h1 ⊢
  generalize b.style = sb at h1 ⊢
  cases h1 with
  | none hcall =>
    have : strokeStyle' k { sa with width := 0 } = { strokeStyle' k sa with width := 0 } := by simp [strokeStyle']
    rw [this]; exact .none hcall
  | solid hcall => exact .solid hcall
  | @dash cmds _ offset pattern hcall _ hp hoff =>
    have := no_settings (by decide) hcall ho
    subst this
    have hp := final_nil hp
    have hoff := final_nil hoff
    subst hp hoff
    refine .dash (cmds := []) (offset := k * a.offset.value) (pattern := _) hcall (fun _ hx => absurd hx List.not_mem_nil) ?_ rfl
    show _ = [_, _]
    rw [pt_big hz]; rfl

theorem grows_fill (hz : Resized k E z) {n : String} (hn : n ∈ patternOptions) :
    Grows E.stod (fill k) (n, Options.fillStyle E) (n, Options.fillStyle (env E z)) := by
  refine ⟨rfl, fun c hc h a b hb => ?_⟩
  have ho := hc.pattern n hn h
  cases hb with
  | none hcall => exact .none hcall
  | color hcol => exact .color hcol
  | @hatch cmds _ c angle offset stride width hcall _ h1 h2 h3 h4 h5 =>
    have := no_settings (by decide) hcall ho
    subst this
    have h1 := final_nil h1
    have h2 := final_nil h2
    have h3 := final_nil h3
    have h4 := final_nil h4
    have h5 := final_nil h5
    subst h1 h2 h3 h4 h5
    refine .hatch (cmds := []) hcall (fun _ hx => absurd hx List.not_mem_nil) rfl rfl ?_ ?_ ?_
    · exact mul_zero k
    · exact (pt_big hz _).symm
    · exact (pt_big hz _).symm

macro "grown" hz:term : tactic => `(tactic| first
  | exact grows_size $hz (by decide +kernel)
  | exact grows_width $hz (by decide +kernel)
  | exact grows_color
  | exact grows_fillColor
  | exact grows_border
  | exact grows_style $hz (by decide +kernel)
  | exact grows_fill $hz (by decide +kernel)
  | exact grows_none (by decide +kernel))

macro "growns" hz:term : tactic => `(tactic| repeat (first
  | exact List.Forall₂.nil
  | exact List.forall_mem_nil _
  | refine List.forall_mem_cons.2 ⟨by grown $hz, ?_⟩
  | refine List.Forall₂.cons (by grown $hz) ?_))

/-! ## Accepted options -/

def TakesOn (Q : Expr → Prop) (p q : String × (List Expr → Prop)) : Prop :=
  q.1 = p.1 ∧ ∀ c, Q c → nameOf c = some (String.toList p.1) → p.2 (argsOf c) → q.2 (argsOf c)

abbrev TakesToo (stod : Str → Option (ℝ × Nat)) (p q : String × (List Expr → Prop)) : Prop := TakesOn (Plain stod) p q

theorem accepted_big {Q : Expr → Prop} {t t' : Takes} (ht : List.Forall₂ (TakesOn Q) t t') {cs : List Expr}
    (hc : ∀ c ∈ cs, Q c) (h : Acceptable t cs) : Acceptable t' cs := by
  intro c hm
  obtain ⟨n, A, h1, h2, h3⟩ := h c hm
  have hp := hc c hm
  clear * - ht h1 h2 h3 hp
  induction ht with
  | nil => cases h1
  | @cons p q _ _ h _ ih =>
    rcases List.mem_cons.1 h1 with rfl | h1
    · obtain ⟨hn, hA⟩ := h
      obtain ⟨m, A'⟩ := q
      have hn : m = n := hn
      subst hn
      exact ⟨m, A', .head _, h2, hA c hp h2 h3⟩
    · obtain ⟨m, A', h4, h5⟩ := ih h1
      exact ⟨m, A', .tail _ h4, h5⟩

theorem takes_same {stod : Str → Option (ℝ × Nat)} {n : String} {A A' : List Expr → Prop} (h : ∀ args, A args → A' args) :
    TakesToo stod (n, A) (n, A') := ⟨rfl, fun c _ _ hA => h (argsOf c) hA⟩

theorem takes_size (hz : Resized k E z) {n : String} (hn : n ∈ lengthOptions) :
    TakesToo E.stod (n, Has (IsSize E)) (n, Has (IsSize (env E z))) :=
  ⟨rfl, fun _ hc h ⟨v, hv⟩ => ⟨k * v, size_big hz (hc.length n hn h) hv⟩⟩

theorem takes_none {stod : Str → Option (ℝ × Nat)} {n : String} {A A' : List Expr → Prop} (hn : n ∈ pixelOptions) :
    TakesToo stod (n, A) (n, A') := ⟨rfl, fun _ hc h => absurd h (hc.pixels n hn)⟩

theorem stroke_inv (hk : k ≠ 0) (s : StrokeState) : stroke k (stroke k⁻¹ s) = s := by
  unfold stroke measure
  simp [mul_inv_cancel_left₀ hk, Function.comp_def]

theorem fill_inv (hk : k ≠ 0) (f : FillStyle) : fill k (fill k⁻¹ f) = f := by
  obtain ⟨c, _ | ⟨a, b, d, e⟩⟩ := f
  · rfl
  · simp [fill, mul_inv_cancel_left₀ hk]

theorem takes_style (hk : k ≠ 0) (hz : Resized k E z) {n : String} (hn : n ∈ patternOptions) :
    TakesToo E.stod (n, Does (Options.strokeStyle E)) (n, Does (Options.strokeStyle (env E z))) := by
  refine ⟨rfl, fun c hc h hd a => ?_⟩
  obtain ⟨b, hb⟩ := hd (stroke k⁻¹ a)
  have := (grows_style hz hn).2 c hc h _ _ hb
  rw [stroke_inv hk] at this
  exact ⟨_, this⟩

theorem takes_fill (hk : k ≠ 0) (hz : Resized k E z) {n : String} (hn : n ∈ patternOptions) :
    TakesToo E.stod (n, Does (Options.fillStyle E)) (n, Does (Options.fillStyle (env E z))) := by
  refine ⟨rfl, fun c hc h hd a => ?_⟩
  obtain ⟨b, hb⟩ := hd (fill k⁻¹ a)
  have := (grows_fill hz hn).2 c hc h _ _ hb
  rw [fill_inv hk] at this
  exact ⟨_, this⟩

macro "takeToo" hk:term:max hz:term:max : tactic => `(tactic| first
  | exact takes_size $hz (by decide +kernel)
  | exact takes_style $hk $hz (by decide +kernel)
  | exact takes_fill $hk $hz (by decide +kernel)
  | exact takes_none (by decide +kernel)
  | exact takes_same (fun _ h => h))

macro "takesToo" hk:term:max hz:term:max : tactic => `(tactic| repeat (first
  | exact List.Forall₂.nil
  | refine List.Forall₂.cons (by takeToo $hk $hz) ?_))

theorem takes_all {stod : Str → Option (ℝ × Nat)} (t : Takes) : List.Forall₂ (TakesToo stod) t t := by
  induction t with
  | nil => exact .nil
  | cons p t ih => exact .cons ⟨rfl, fun _ _ _ h => h⟩ ih

end
end Clip.Enlarge
