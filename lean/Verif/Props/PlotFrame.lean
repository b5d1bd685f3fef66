import Verif.Lemmas.Plot
set_option linter.unusedSimpArgs false
/-!
# C88: what a plot leaves on the page
-/
namespace Clip
open Commands Settings Pictures
variable {φ : Type}

theorem draws_render (P : PlotEnv φ) :
    (∀ c s, Draws s (linesRender P c s).1) ∧ (∀ c s, Draws s (pointsRender P c s).1) ∧
    (∀ c s, Draws s (barsRender P c s).1) ∧ (∀ c s, Draws s (areasRender P c s).1) ∧
    (∀ c s, Draws s (errorbarsRender P c s).1) ∧ (∀ c s, Draws s (rectanglesRender P c s).1) ∧
    (∀ c s, Draws s (vectorsRender P c s).1) ∧ (∀ c s, Draws s (labelsRender P c s).1) ∧
    (∀ c s, Draws s (gridRender P c s).1) ∧ (∀ c s, Draws s (axesRender P c s).1) ∧
    (∀ c s, Draws s (legendRender P c s).1) := by
  refine ⟨?_, ?_, ?_, ?_, ?_, ?_, ?_, ?_, ?_, ?_, ?_⟩ <;> intro c s
  · unfold linesRender
    split
    · exact .refl s
    · split
      · exact .refl s
      · exact draws_on _ _ (adds_ops? ..)
  · unfold pointsRender
    split
    · exact .refl s
    · split
      · exact .refl s
      · exact draws_on _ _ (adds_ops? ..)
  · unfold barsRender
    split
    · exact .refl s
    · exact draws_on _ _ (adds_ops? ..)
  · unfold areasRender
    split
    · exact .refl s
    · split <;> split
      · exact .refl s
      · exact draws_on _ _ (adds_area ..)
      · exact .refl s
      · exact draws_on _ _ (adds_area ..)
  · unfold errorbarsRender
    split
    · exact .refl s
    · refine draws_on _ _ (adds_chain _ ?_ _)
      have hb : ∀ l : List (Vec2 × Vec2), ∀ o ∈ renderErrorbars (φ := φ) c l, ∀ L, Adds L (o L).1 := by
        intro l o ho L
        simp only [renderErrorbars, List.mem_map] at ho
        obtain ⟨p, _, rfl⟩ := ho
        unfold renderErrorbar
        split
        · exact .refl L
        · exact adds_foldl _ (fun _ _ => adds_renderPath ..) _ _
      intro o ho
      rcases List.mem_append.1 ho with h | h
      · exact hb _ o h
      · exact hb _ o h
  · unfold rectanglesRender
    split
    · exact .refl s
    · split
      · exact .refl s
      · refine draws_on _ _ (adds_chain _ ?_ _)
        simp only [List.mem_map]
        rintro o ⟨p, _, rfl⟩ L
        unfold renderRect
        split
        · exact adds_renderPath ..
        · exact .refl L
  · unfold vectorsRender
    split
    · exact .refl s
    · exact draws_on _ _ (adds_ops? ..)
  · unfold labelsRender
    split
    · exact .refl s
    · split
      · exact .refl s
      · exact draws_on _ _ (adds_ops? ..)
  · unfold gridRender
    split
    · exact draws_on _ _ (adds_ops ..)
    · exact .refl s
  · unfold axesRender
    split
    · exact .refl s
    · rename_i box _
      have h0 : Draws s { s with layout := s.layout ++ [box] } := ⟨.refl _, .refl _, .refl _⟩
      refine h0.trans (tryChain_rel .refl (fun _ _ _ => .trans) _ ?_ _)
      intro o ho
      simp only [List.mem_cons, List.not_mem_nil, or_false] at ho
      rcases ho with rfl | rfl | rfl | rfl <;> exact fun s => draws_axisIf P _ s
  · unfold legendRender
    split
    · exact .refl s
    · refine draws_on _ _ (Adds.trans ?_ ((adds_borders ..).trans (adds_legendItems ..)))
      split
      · exact adds_renderPath ..
      · exact .refl _

theorem sameButHints_fold {α : Type} (f : α → ℝ) (vs : List α) (s : Scale) :
    SameButHints s (vs.foldl (fun s v => scaleFit s (f v)) s) := by
  induction vs generalizing s with
  | nil => exact .refl s
  | cons v vs ih => exact SameButHints.trans (b := scaleFit s (f v)) rfl (ih _)

theorem fitPolys_eq (ps : List Poly2) (s : Scales) :
    fitPolys ps s = ⟨(ps.flatMap (·.boundary)).foldl (fun s v => scaleFit s v.x) s.x,
      (ps.flatMap (·.boundary)).foldl (fun s v => scaleFit s v.y) s.y⟩ := by
  unfold fitPolys
  generalize ps.flatMap (·.boundary) = vs
  induction vs generalizing s with
  | nil => rfl
  | cons v vs ih => simp only [List.foldl_cons, ih]

theorem draws_shareHints (c : Scales) (s : PlotState φ) : Draws s (shareHints c s) := ⟨.refl _, rfl, rfl⟩

theorem draws_polygons (P : PlotEnv φ) (args : List Expr) (s : PlotState φ) : Draws s (polygonsCmd P args s).1 := by
  apply draws_withConfig
  intro c s _ _
  simp only
  split
  · exact draws_shareHints ..
  · refine (draws_shareHints c.scales s).trans (draws_on _ _ ?_)
    exact adds_foldl _ (fun _ _ => adds_renderPath ..) _ _

/-- Every command of the drawing phase. -/
theorem draws_table (P : PlotEnv φ) (E : ReadEnv) (n : Str) (h : Handler (PlotState φ) Fail)
    (hf : optTable (plotDrawTable P E) n = some h) (args : List Expr) (s : PlotState φ) : Draws s (h args s).1 := by
  obtain ⟨h1, h2, h3, h4, h5, h6, h7, h8, h9, h10, h11⟩ := draws_render P
  obtain ⟨p, hp, -, rfl⟩ := optTable_some hf
  have hm : ∀ g, Draws s (onPlotMargins g args s).1 := fun g => ⟨.refl _, .refl _, .refl _⟩
  simp only [plotDrawTable, List.mem_cons, List.not_mem_nil, or_false] at hp
  rcases hp with rfl | rfl | rfl | rfl | rfl | rfl | rfl | rfl | rfl | rfl | rfl | rfl | rfl | rfl | rfl | rfl | rfl | rfl | rfl
  · exact hm _
  · exact hm _
  · exact hm _
  · exact hm _
  · exact hm _
  · exact draws_withConfig _ _ (fun c s _ _ => h10 c s) _ _
  · exact draws_withConfig _ _ (fun c s _ _ => draws_axis P c s) _ _
  · exact draws_withConfig _ _ (fun c s _ _ => h9 c s) _ _
  · refine draws_withConfig _ _ ?_ args s
    intro c s _ _
    exact draws_on _ _ (adds_renderPath ..)
  · exact draws_withConfig _ _ (fun c s _ _ => h11 c s) _ _
  · exact draws_withConfig _ _ (fun c s _ _ => h4 c s) _ _
  · exact draws_withConfig _ _ (fun c s _ _ => h3 c s) _ _
  · exact draws_withConfig _ _ (fun c s _ _ => h5 c s) _ _
  · exact draws_withConfig _ _ (fun c s _ _ => h8 c s) _ _
  · exact draws_withConfig _ _ (fun c s _ _ => h1 c s) _ _
  · exact draws_withConfig _ _ (fun c s _ _ => h2 c s) _ _
  · exact draws_polygons P args s
  · exact draws_withConfig _ _ (fun c s _ _ => h6 c s) _ _
  · exact draws_withConfig _ _ (fun c s _ _ => h7 c s) _ _

/-- What a command of the preparation may do: change the scales of the plot. -/
def Prepares (s s' : PlotState φ) : Prop := s' = { s with scales := s'.scales }

theorem Prepares.refl (s : PlotState φ) : Prepares s s := rfl

theorem Prepares.trans {a b c : PlotState φ} (h : Prepares a b) (h' : Prepares b c) : Prepares a c := by
  unfold Prepares at *; rw [h']; rw [h]

theorem prepares_part (h : Handler Scales Fail) (args : List Expr) (s : PlotState φ) :
    Prepares s (onPart (·.scales) (fun (s : PlotState φ) v => { s with scales := v }) h args s).1 := rfl

theorem prepares_withConfig {κ : Type} (configure : PlotState φ → List Expr → Except Fail κ)
    (k : κ → PlotState φ → PlotState φ × Option Fail) (h : ∀ c s, Prepares s (k c s).1)
    (args : List Expr) (s : PlotState φ) : Prepares s (withConfig configure k args s).1 := by
  unfold withConfig
  split
  · exact .refl s
  · exact h _ s

theorem prepares_table (P : PlotEnv φ) (E : ReadEnv) (n : Str) (h : Handler (PlotState φ) Fail)
    (hf : optTable (prepareTable P E) n = some h) (args : List Expr) (s : PlotState φ) : Prepares s (h args s).1 := by
  obtain ⟨p, hp, -, rfl⟩ := optTable_some hf
  rcases List.mem_append.1 hp with hp | hp
  · simp only [plotScaleOpts, liftOpts, List.mem_map] at hp
    obtain ⟨q, _, rfl⟩ := hp
    exact prepares_part _ _ _
  · simp only [List.mem_cons, List.not_mem_nil, or_false] at hp
    rcases hp with rfl | rfl | rfl | rfl | rfl | rfl | rfl | rfl | rfl <;>
      (refine prepares_withConfig _ _ ?_ args s; intro c s; rfl)

theorem prepare_frame (P : PlotEnv φ) (cmds : List Expr) (s : PlotState φ) : Prepares s (plotPrepare P cmds s).1 :=
  walkSkip_rel .refl (fun _ _ _ => .trans) (prepares_table P _) cmds s

theorem draw_frame (P : PlotEnv φ) (cmds : List Expr) (s : PlotState φ) : Draws s (plotDraw P cmds s).1 :=
  walkSkip_rel .refl (fun _ _ _ => .trans) (draws_table P _) cmds s

/-- C88: whatever a plot contains, and even if it fails, it only adds shapes to the page: what was drawn before stays, in
its place, and size, fonts, background, palette and default style of the page are unchanged. -/
theorem C88_adds (P : PlotEnv φ) (cmds : List Expr) (L : Layer φ) : ∃ shapes, (plotModule P cmds L).1 = draw L shapes := by
  have h1 := prepare_frame P cmds { layer := L }
  have h2 : (plotPrepare P cmds { layer := L }).1.layer = L := by rw [h1]
  unfold plotModule plotRun
  cases hp : plotPrepare P cmds { layer := L } with
  | mk s' o =>
    rw [hp] at h2
    cases o with
    | some f => exact ⟨[], by simp [draw] at h2 ⊢; exact h2⟩
    | none =>
      obtain ⟨shapes, hs⟩ := (draw_frame P cmds s').adds
      exact ⟨shapes, by simp only; rw [hs]; simp only at h2; rw [h2]⟩

end Clip
