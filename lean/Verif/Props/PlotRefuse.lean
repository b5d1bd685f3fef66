import Verif.Props.PlotFrame
import Verif.Props.OptionsMean
set_option linter.unusedSimpArgs false
/-!
# C88: a plot that cannot be prepared draws nothing
-/
namespace Clip
open Commands Settings Pictures Drawing Options
variable {φ : Type} {σ : Type}

/-- Every command of an executed block is executed in some state on the way. -/
theorem executed_mem {fns : HandlerMap σ Fail} {R : σ → σ → Prop} (hr : ∀ s, R s s) (ht : ∀ a b c, R a b → R b c → R a c)
    (hh : ∀ n h, fns n = some h → ∀ args s, R s (h args s).1) {cmds : List Expr} {s s' : σ}
    (he : Executed fns cmds s s') : R s s' ∧ ∀ c ∈ cmds, ∃ n h s₁ s₂, nameOf c = some n ∧ fns n = some h ∧
      h (argsOf c) s₁ = (s₂, none) ∧ R s s₁ ∧ R s₂ s' := by
  induction he with
  | nil s => exact ⟨hr s, by simp⟩
  | @cons n args rest s s₁ s' h hn hf hres _ ih =>
    have hstep : R s s₁ := by
      have := hh _ h hf args s
      rw [hres] at this; exact this
    refine ⟨ht _ _ _ hstep ih.1, ?_⟩
    intro c hc
    rcases List.mem_cons.1 hc with rfl | hc
    · exact ⟨n.getValue, h, s, s₁, nameOf_isValue hn _, hf, hres, hr s, ih.1⟩
    · obtain ⟨m, h', a, b, h1, h2, h3, h4, h5⟩ := ih.2 c hc
      exact ⟨m, h', a, b, h1, h2, h3, ht _ _ _ hstep h4, h5⟩

theorem prepare_areas (P : PlotEnv φ) (E : ReadEnv) : optTable (prepareTable P E) "areas".toList = some (areasAutorange P) := by
  simp only [prepareTable, plotScaleOpts, liftOpts, scaleOpts, limitOpts, List.map_append, List.map_cons, List.map_nil,
    List.cons_append, List.nil_append, optTable_cons, reduceIte, String.reduceEq]

theorem prepare_bars (P : PlotEnv φ) (E : ReadEnv) : optTable (prepareTable P E) "bars".toList = some (barsAutorange P) := by
  simp only [prepareTable, plotScaleOpts, liftOpts, scaleOpts, limitOpts, List.map_append, List.map_cons, List.map_nil,
    List.cons_append, List.nil_append, optTable_cons, reduceIte, String.reduceEq]

theorem prepare_errorbars (P : PlotEnv φ) (E : ReadEnv) : optTable (prepareTable P E) "errorbars".toList = some (errorbarsAutorange P) := by
  simp only [prepareTable, plotScaleOpts, liftOpts, scaleOpts, limitOpts, List.map_append, List.map_cons, List.map_nil,
    List.cons_append, List.nil_append, optTable_cons, reduceIte, String.reduceEq]

theorem prepare_labels (P : PlotEnv φ) (E : ReadEnv) : optTable (prepareTable P E) "labels".toList = some (labelsAutorange P) := by
  simp only [prepareTable, plotScaleOpts, liftOpts, scaleOpts, limitOpts, List.map_append, List.map_cons, List.map_nil,
    List.cons_append, List.nil_append, optTable_cons, reduceIte, String.reduceEq]

theorem prepare_lines (P : PlotEnv φ) (E : ReadEnv) : optTable (prepareTable P E) "lines".toList = some (linesAutorange P) := by
  simp only [prepareTable, plotScaleOpts, liftOpts, scaleOpts, limitOpts, List.map_append, List.map_cons, List.map_nil,
    List.cons_append, List.nil_append, optTable_cons, reduceIte, String.reduceEq]

theorem prepare_points (P : PlotEnv φ) (E : ReadEnv) : optTable (prepareTable P E) "points".toList = some (pointsAutorange P) := by
  simp only [prepareTable, plotScaleOpts, liftOpts, scaleOpts, limitOpts, List.map_append, List.map_cons, List.map_nil,
    List.cons_append, List.nil_append, optTable_cons, reduceIte, String.reduceEq]

theorem prepare_polygons (P : PlotEnv φ) (E : ReadEnv) : optTable (prepareTable P E) "polygons".toList = some (polygonsAutorange P) := by
  simp only [prepareTable, plotScaleOpts, liftOpts, scaleOpts, limitOpts, List.map_append, List.map_cons, List.map_nil,
    List.cons_append, List.nil_append, optTable_cons, reduceIte, String.reduceEq]

theorem prepare_rectangles (P : PlotEnv φ) (E : ReadEnv) : optTable (prepareTable P E) "rectangles".toList = some (rectanglesAutorange P) := by
  simp only [prepareTable, plotScaleOpts, liftOpts, scaleOpts, limitOpts, List.map_append, List.map_cons, List.map_nil,
    List.cons_append, List.nil_append, optTable_cons, reduceIte, String.reduceEq]

theorem prepare_vectors (P : PlotEnv φ) (E : ReadEnv) : optTable (prepareTable P E) "vectors".toList = some (vectorsAutorange P) := by
  simp only [prepareTable, plotScaleOpts, liftOpts, scaleOpts, limitOpts, List.map_append, List.map_cons, List.map_nil,
    List.cons_append, List.nil_append, optTable_cons, reduceIte, String.reduceEq]

/-- C88: if one of the data elements of a plot has an option it does not know, or an option with wrong arguments, nothing
of the plot is drawn: not even what stands before that element. -/
theorem C88_refused (P : PlotEnv φ) (cmds : List Expr) (L : Layer φ) (hp : L.palette ≠ []) (c : Expr) (hc : c ∈ cmds)
    (n : String) (t : Takes) (hn : (n, t) ∈ dataElements P (L.env P.stod)) (hname : nameOf c = some n.toList)
    (hbad : ¬ Acceptable t (argsOf c)) : ∃ f, plotModule P cmds L = (L, some f) := by
  unfold plotModule plotRun
  have h1 := prepare_frame P cmds { layer := L }
  have h2 : (plotPrepare P cmds { layer := L }).1.layer = L := by rw [h1]
  cases hpr : plotPrepare P cmds { layer := L } with
  | mk s' o =>
    rw [hpr] at h2
    cases o with
    | some f => exact ⟨f, by simp only at h2 ⊢; rw [h2]⟩
    | none =>
      exfalso
      unfold plotPrepare at hpr
      obtain ⟨hcom, hex⟩ := (walkSkip_ok _ _ _ _).1 hpr
      have key : ∀ (h : Handler (PlotState φ) Fail), optTable (prepareTable P (PlotState.env { layer := L } P)) n.toList = some h →
          ∃ s₁ s₂ : PlotState φ, h (argsOf c) s₁ = (s₂, none) ∧ s₁.layer = L := by
        intro h hf
        have hk : c ∈ cmds.filter (isKnown (optTable (prepareTable P (PlotState.env { layer := L } P)))) := by
          rw [List.mem_filter]
          refine ⟨hc, ?_⟩
          obtain ⟨m, args, rfl, hm, hmn⟩ := nameOf_some hname
          simp only [isKnown, hm, hmn, hf, Option.isSome_some, Bool.and_self]
        obtain ⟨_, hall⟩ := executed_mem .refl (fun _ _ _ => .trans) (prepares_table P _) hex
        obtain ⟨m, h', s₁, s₂, e1, e2, e3, e4, e5⟩ := hall c hk
        rw [hname] at e1
        cases e1
        rw [hf] at e2
        cases e2
        refine ⟨s₁, s₂, e3, ?_⟩
        unfold Prepares at e4
        rw [e4]
      have no : ∀ {κ : Type} {configure : PlotState φ → List Expr → Except Fail κ}
          {k : κ → PlotState φ → PlotState φ × Option Fail} {means : κ → PlotState φ → Prop} {loads : κ → κ → Prop},
          (∀ s : PlotState φ, s.layer = L → Configured (configure s (argsOf c)) (Acceptable t (argsOf c)) (fun o => means o s) loads) →
          optTable (prepareTable P (PlotState.env { layer := L } P)) n.toList = some (withConfig configure k) → False := by
        intro κ configure k means loads hconf hf
        obtain ⟨s₁, s₂, e1, e2⟩ := key _ hf
        have := (hconf s₁ e2).1 hbad
        unfold withConfig at e1
        cases hr : configure s₁ (argsOf c) with
        | error f => rw [hr] at e1; simp at e1
        | ok v => exact this v hr
      have env : ∀ s : PlotState φ, s.layer = L → s.env P = L.env P.stod := by
        intro s h; unfold PlotState.env; rw [h]
      have pal : ∀ s : PlotState φ, s.layer = L → (s.env P).palette ≠ [] := by
        intro s h; rw [env s h]; exact hp
      simp only [dataElements, List.mem_cons, Prod.mk.injEq, List.not_mem_nil, or_false] at hn
      rcases hn with ⟨rfl, rfl⟩ | ⟨rfl, rfl⟩ | ⟨rfl, rfl⟩ | ⟨rfl, rfl⟩ | ⟨rfl, rfl⟩ | ⟨rfl, rfl⟩ | ⟨rfl, rfl⟩ | ⟨rfl, rfl⟩ | ⟨rfl, rfl⟩
      · exact no (fun s h => env s h ▸ C90_areas P s (pal s h) _) (prepare_areas P _)
      · exact no (fun s h => env s h ▸ C90_bars P s (pal s h) _) (prepare_bars P _)
      · exact no (fun s h => env s h ▸ C90_errorbars P s (pal s h) _) (prepare_errorbars P _)
      · exact no (fun s h => env s h ▸ C90_labels P s (pal s h) _) (prepare_labels P _)
      · exact no (fun s h => env s h ▸ C90_lines P s (pal s h) _) (prepare_lines P _)
      · exact no (fun s h => env s h ▸ C90_points P s (pal s h) _) (prepare_points P _)
      · exact no (fun s h => env s h ▸ C90_polygons P s (pal s h) _) (prepare_polygons P _)
      · exact no (fun s h => env s h ▸ C90_rectangles P s (pal s h) _) (prepare_rectangles P _)
      · exact no (fun s h => env s h ▸ C90_vectors P s (pal s h) _) (prepare_vectors P _)

/-- A misspelt option after a background: the background is not drawn either. -/
example (P : PlotEnv φ) (L : Layer φ) (hp : L.palette ≠ []) : ∃ f, plotModule P [.list [.literal "background".toList],
    .list [.literal "lines".toList, .list [.literal "colour".toList]]] L = (L, some f) := by
  refine C88_refused P _ L hp _ (.tail _ (.head _)) "lines" (linesTakes P (L.env P.stod)) (by simp [dataElements]) rfl ?_
  intro h
  obtain ⟨n, A, hA, hn, -⟩ := h _ (.head _)
  have hn : "colour" = n := String.toList_inj.1 (Option.some.inj hn)
  subst hn
  simp [linesTakes, takesData, takesScales, takesLimits] at hA

end Clip
