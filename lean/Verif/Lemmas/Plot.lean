import Verif.Model.PlotModule
import Verif.Props.DrawText
import Verif.Lemmas.Settings
set_option linter.unusedSimpArgs false
/-! Lemmas about option tables, walks and drawing in plots. -/
namespace Clip
open Commands Settings Pictures
variable {σ ε φ : Type}

/-! ## Walks -/

theorem walkMap_rel {fns : HandlerMap σ ε} {R : σ → σ → Prop} (hr : ∀ s, R s s) (ht : ∀ a b c, R a b → R b c → R a c)
    (hh : ∀ n h, fns n = some h → ∀ args s, R s (h args s).1) (cmds : List Expr) :
    ∀ u s, R s (walkMap fns u cmds s).1 := by
  induction cmds with
  | nil => intro u s; exact hr s
  | cons e rest ih =>
    intro u s
    unfold walkMap
    split
    · split
      · split
        · split
          · split
            · exact ih _ _
            · exact ih _ _
          · exact hr s
        · rename_i fn hf
          have := hh _ _ hf ‹_› s
          split
          · rename_i s' he
            rw [he] at this
            exact ht _ _ _ this (ih _ _)
          · rename_i s' err he
            rw [he] at this
            exact this
      · exact hr s
    · exact hr s
    · exact hr s

theorem walkSkip_eq (fns : HandlerMap σ Fail) (cmds : List Expr) (s : σ) :
    (walkSkip fns cmds s).1 = (walkMap fns (some ([], [])) cmds s).1 := by
  unfold walkSkip
  rw [walkLax_eq]
  cases (walkMap fns (some ([], [])) cmds s).2 with
  | ok o => rfl
  | error e => cases e <;> rfl

theorem walkSkip_ok (fns : HandlerMap σ Fail) (cmds : List Expr) (s s' : σ) :
    walkSkip fns cmds s = (s', none) ↔
      (∀ c ∈ cmds, isCommand c = true) ∧ Executed fns (cmds.filter (isKnown fns)) s s' := by
  rw [← walkLax_ok]
  unfold walkSkip
  rcases walkLax fns cmds s with ⟨t, (_ | _ | _ | _) | _⟩ <;> simp

theorem walkSkip_rel {fns : HandlerMap σ Fail} {R : σ → σ → Prop} (hr : ∀ s, R s s) (ht : ∀ a b c, R a b → R b c → R a c)
    (hh : ∀ n h, fns n = some h → ∀ args s, R s (h args s).1) (cmds : List Expr) (s : σ) :
    R s (walkSkip fns cmds s).1 := by
  rw [walkSkip_eq]; exact walkMap_rel hr ht hh cmds _ s

theorem walkRead_eq (fns : HandlerMap σ Fail) (cmds : List Expr) (s : σ) :
    (walkRead fns cmds s).1 = (walkMap fns none cmds s).1 := by
  unfold walkRead walkStrict
  rcases walkMap fns none cmds s with ⟨t, (_ | _ | _ | _) | _⟩ <;> rfl

theorem tryChain_rel {R : σ → σ → Prop} (hr : ∀ s, R s s) (ht : ∀ a b c, R a b → R b c → R a c)
    (os : List (σ → σ × Option ε)) (hh : ∀ o ∈ os, ∀ s, R s (o s).1) : ∀ s, R s (tryChain os s).1 := by
  induction os with
  | nil => intro s; exact hr s
  | cons o os ih =>
    intro s
    have h1 := hh o (by simp) s
    unfold tryChain
    split
    · rename_i s' he
      rw [he] at h1
      exact ht _ _ _ h1 (ih (fun o ho => hh o (by simp [ho])) s')
    · rename_i s' e he
      rw [he] at h1
      exact h1

/-! ## Option tables -/

theorem optTable_some {l : List (String × Handler σ Fail)} {n : Str} {h : Handler σ Fail} (hf : optTable l n = some h) :
    ∃ p ∈ l, p.1.toList = n ∧ p.2 = h := by
  unfold optTable at hf
  rw [Option.map_eq_some_iff] at hf
  obtain ⟨p, hp, rfl⟩ := hf
  refine ⟨p, List.mem_of_find?_eq_some hp, ?_, rfl⟩
  have := List.find?_some hp
  simpa using this

theorem optTable_none {l : List (String × Handler σ Fail)} {n : Str} :
    optTable l n = none ↔ ∀ p ∈ l, p.1.toList ≠ n := by
  unfold optTable
  rw [Option.map_eq_none_iff, List.find?_eq_none]
  simp

/-- The entry of a name that occurs once. -/
theorem optTable_find {l : List (String × Handler σ Fail)} {name : String} {h : Handler σ Fail}
    (hl : l.find? (fun p => decide (p.1.toList = name.toList)) = some (name, h)) : optTable l name.toList = some h := by
  unfold optTable; rw [hl]; rfl

theorem optTable_cons (m n : String) (h : Handler σ Fail) (l : List (String × Handler σ Fail)) :
    optTable ((m, h) :: l) n.toList = if m = n then some h else optTable l n.toList := by
  unfold optTable
  by_cases hmn : m = n
  · subst hmn; simp
  · rw [List.find?_cons_of_neg, if_neg hmn]
    simpa [String.toList_inj] using hmn

theorem optTable_append {l m : List (String × Handler σ Fail)} {n : Str} :
    optTable (l ++ m) n = (optTable l n).or (optTable m n) := by
  unfold optTable
  rw [List.find?_append]
  cases List.find? (fun p => decide (p.1.toList = n)) l <;> simp

theorem optTable_lift {α : Type} (get : σ → α) (put : σ → α → σ) (l : List (String × Handler α Fail)) (n : Str) :
    optTable (liftOpts get put l) n = (optTable l n).map (onPart get put) := by
  unfold optTable liftOpts
  rw [List.find?_map]
  simp only [Option.map_map, Function.comp_def]

/-! ## Drawing only adds to the page -/

/-- The second page is the first one with more on it. -/
def Adds (L L' : Layer φ) : Prop := ∃ shapes, L' = draw L shapes

theorem Adds.refl (L : Layer φ) : Adds L L := ⟨[], by simp [draw]⟩

theorem Adds.trans {L L' L'' : Layer φ} (h : Adds L L') (h' : Adds L' L'') : Adds L L'' := by
  obtain ⟨a, rfl⟩ := h
  obtain ⟨b, rfl⟩ := h'
  exact ⟨a ++ b, by simp [draw, List.append_assoc]⟩

theorem adds_renderPath (k : StrokeState) (f : FillStyle) (c : Bool) (p : Path) (L : Layer φ) :
    Adds L (renderPath k f c p L) := ⟨_, rfl⟩

theorem adds_text (T : TextEnv φ) (L : Layer φ) (t : Str) (pos : Vec2) (ax : HAlign) (ay : VAlign) (r : ℝ) (fonts : List φ)
    (fs : ℝ) (c : Color) : Adds L (drawTextRotated T L t pos ax ay r fonts fs c).1 := C82_frame T L _

theorem adds_marker (P : PlotEnv φ) (m : Marker) (pos : Vec2) (size : ℝ) (color : Color) (L : Layer φ) :
    Adds L (renderMarker P m pos size color L).1 := by
  unfold renderMarker
  split
  · exact adds_renderPath ..
  · exact adds_renderPath ..
  · exact adds_text ..

theorem adds_arrow (a b : Vec2) (size : ℝ) (color : Color) (L : Layer φ) :
    Adds L (renderArrow a b size color L).1 := by
  unfold renderArrow
  split
  · exact (adds_renderPath ..).trans (adds_renderPath ..)
  · exact .refl L

theorem adds_op (P : PlotEnv φ) (st : OpStyle φ) (op : PlotOp Marker Color) (L : Layer φ) :
    Adds L (renderOp P st op L).1 := by
  cases op with
  | path p => exact adds_renderPath ..
  | marker => exact adds_marker ..
  | arrow => exact adds_arrow ..
  | text => exact adds_text ..

theorem adds_chain (os : List (Layer φ → Layer φ × Option Fail)) (h : ∀ o ∈ os, ∀ L, Adds L (o L).1) (L : Layer φ) :
    Adds L (tryChain os L).1 := tryChain_rel .refl (fun _ _ _ => .trans) os h L

theorem adds_ops (P : PlotEnv φ) (st : OpStyle φ) (ops : List (PlotOp Marker Color)) (L : Layer φ) :
    Adds L (renderOps P st ops L).1 := by
  apply adds_chain
  simp only [List.mem_map]
  rintro o ⟨op, _, rfl⟩ L
  exact adds_op P st op L

theorem adds_ops? (P : PlotEnv φ) (st : OpStyle φ) (ops : Option (List (PlotOp Marker Color))) (L : Layer φ) :
    Adds L (renderOps? P st ops L).1 := by
  cases ops with
  | none => exact .refl L
  | some ops => exact adds_ops P st ops L

theorem adds_foldl {α : Type} (f : Layer φ → α → Layer φ) (hf : ∀ L a, Adds L (f L a)) (l : List α) (L : Layer φ) :
    Adds L (l.foldl f L) := by
  induction l generalizing L with
  | nil => exact .refl L
  | cons a l ih => exact (hf L a).trans (ih _)

theorem adds_area (c : AreasConf) (ops : Option (List (PlotOp Marker Color))) (L : Layer φ) :
    Adds L (renderArea c ops L).1 := by
  unfold renderArea
  split
  · exact ((adds_renderPath ..).trans (adds_renderPath ..)).trans (adds_renderPath ..)
  · exact .refl L

theorem adds_line (k : StrokeState) (p q : Vec2) (L : Layer φ) : Adds L (renderLine k p q L) := adds_renderPath ..

theorem adds_axisTitle (P : PlotEnv φ) (a : AxisDef φ) (em : ℝ) (pt : ℝ → ℝ → Vec2) (at_ l0 l1 size : ℝ) (L : Layer φ) :
    Adds L (axisTitle P a em pt at_ l0 l1 size L).1 := by
  unfold axisTitle
  split
  · exact .refl L
  · split
    · exact .refl L
    · exact adds_text ..

theorem adds_axis (P : PlotEnv φ) (a : AxisDef φ) (em : ℝ) (pt : ℝ → ℝ → Vec2) (at_ l0 l1 : ℝ) (L : Layer φ) :
    Adds L (axisDraw P a em pt at_ l0 l1 L).1 := by
  have h1 : Adds L (renderLine a.border (pt at_ l0) (pt at_ l1) L) := adds_line ..
  unfold axisDraw
  simp only
  split
  · exact h1
  · rename_i ticks _ _
    have h2 := h1.trans (adds_foldl (fun L t => tickMark a L.size.dpi pt at_ l0 l1 t L) (fun _ _ => adds_line ..) ticks _)
    split
    · exact h2
    · rename_i ls _
      split
      · exact h2
      · have h3 := h2.trans (adds_chain (ls.map (axisLabel P a pt at_ l0 l1)) (by
          simp only [List.mem_map]; rintro o ⟨l, _, rfl⟩ L; exact adds_text ..) _)
        split
        · rename_i he; rw [he] at h3; exact h3
        · rename_i he; rw [he] at h3; exact h3.trans (adds_axisTitle ..)

theorem adds_legendItem (P : PlotEnv φ) (i : LegendItem φ) (b : Rect) (L : Layer φ) :
    Adds L (legendItemDraw P i b L).1 := by
  apply adds_chain
  intro o ho L
  simp only [List.mem_cons, List.not_mem_nil, or_false] at ho
  rcases ho with rfl | rfl
  · exact adds_text ..
  · exact adds_marker ..

theorem adds_legendItems (P : PlotEnv φ) (content : Rect) (items : List (LegendItem φ)) (boxes : List Rect) (L : Layer φ) :
    Adds L (legendItems P content items boxes L).1 := by
  apply adds_chain
  simp only [List.mem_map]
  rintro o ⟨p, _, rfl⟩ L
  exact adds_legendItem ..

theorem adds_border (k : StrokeState) (p q : Vec2) (L : Layer φ) : Adds L (legendBorder k p q L) := by
  unfold legendBorder
  split
  · exact adds_renderPath ..
  · exact .refl L

theorem adds_borders (bs : StrokeState × StrokeState × StrokeState × StrokeState) (b : Rect) (L : Layer φ) :
    Adds L (legendBorders bs b L) :=
  (((adds_border ..).trans (adds_border ..)).trans (adds_border ..)).trans (adds_border ..)

/-! ## Commands of a plot -/

/-- The scale differs in the automatic limits only. -/
def SameButHints (s s' : Scale) : Prop := s' = { s with hints := s'.hints }

theorem SameButHints.refl (s : Scale) : SameButHints s s := rfl

theorem SameButHints.trans {a b c : Scale} (h : SameButHints a b) (h' : SameButHints b c) : SameButHints a c := by
  unfold SameButHints at *
  rw [h'] 
  rw [h]

/-- What a command of the drawing phase may do: add to the page, fit the automatic limits. -/
structure Draws (s s' : PlotState φ) : Prop where
  adds : Adds s.layer s'.layer
  x : SameButHints s.scales.x s'.scales.x
  y : SameButHints s.scales.y s'.scales.y

theorem Draws.refl (s : PlotState φ) : Draws s s := ⟨.refl _, .refl _, .refl _⟩

theorem Draws.trans {a b c : PlotState φ} (h : Draws a b) (h' : Draws b c) : Draws a c :=
  ⟨h.adds.trans h'.adds, h.x.trans h'.x, h.y.trans h'.y⟩

theorem draws_on (s : PlotState φ) (r : Layer φ × Option Fail) (h : Adds s.layer r.1) : Draws s (drawOn s r).1 :=
  ⟨h, .refl _, .refl _⟩

theorem draws_withConfig {κ : Type} (configure : PlotState φ → List Expr → Except Fail κ)
    (k : κ → PlotState φ → PlotState φ × Option Fail) (h : ∀ c s args, configure s args = .ok c → Draws s (k c s).1)
    (args : List Expr) (s : PlotState φ) : Draws s (withConfig configure k args s).1 := by
  unfold withConfig
  split
  · exact .refl s
  · exact h _ s args ‹_›

theorem draws_axis (P : PlotEnv φ) (a : AxisDef φ) (s : PlotState φ) : Draws s (plotAxis P a s).1 := by
  unfold plotAxis
  apply draws_on
  split <;> exact adds_axis ..

theorem draws_axisIf (P : PlotEnv φ) (a : AxisDef φ) (s : PlotState φ) : Draws s (plotAxisIf P a s).1 := by
  unfold plotAxisIf
  split
  · exact draws_axis ..
  · exact .refl s

end Clip
