import Verif.Spec.Limits
import Verif.Props.OptionsMean
import Verif.Props.PlotRefuse
import Verif.Props.Scale
import Verif.Props.Plots
set_option linter.unusedSimpArgs false
/-!
# C89: the automatic limits of a plot
-/
namespace Clip
open Commands Settings Pictures Options Limits ScaleSpec
variable {φ : Type}

/-! ## Settings are determined by the options -/

theorem acts_det {α : Type} {t : List (String × Effect α)} (hf : ∀ p ∈ t, ∀ args a b b', p.2 args a b → p.2 args a b' → b = b')
    (hk : ∀ p ∈ t, ∀ q ∈ t, p.1 = q.1 → p = q) {cmds : List Expr} {a b b' : α} (h : Acts t cmds a b)
    (h' : Acts t cmds a b') : b = b' := by
  induction h with
  | nil a => cases h'; rfl
  | act hn hm hb _ ih =>
    cases h' with
    | act hn' hm' hb' h'' =>
      have e := String.toList_inj.1 (Option.some.inj (hn.symm.trans hn'))
      have := hk _ hm _ hm' e
      cases this
      have := hf _ hm _ _ _ _ hb hb'
      subst this
      exact ih h''
    | skip hs _ => exact absurd hn (hs _ hm)
  | skip hs _ ih =>
    cases h' with
    | act hn' hm' _ _ => exact absurd hn' (hs _ hm')
    | skip _ h'' => exact ih h''

theorem addData_det {P : PlotEnv φ} (args : List Expr) (a b b' : DataBuffer (Option ℝ)) (h : AddData P args a b)
    (h' : AddData P args a b') : b = b' := by
  obtain ⟨vs, e, rfl⟩ := h
  obtain ⟨vs', e', rfl⟩ := h'
  rw [e] at e'
  cases e'
  rfl

theorem addPolys_det {P : PlotEnv φ} (args : List Expr) (a b b' : List Poly2) (h : AddPolys P args a b)
    (h' : AddPolys P args a b') : b = b' := by
  obtain ⟨k, f, as, rest, ps, rfl, hk, e, rfl⟩ := h
  obtain ⟨k', f', as', rest', ps', e0, hk', e', rfl⟩ := h'
  simp only [List.cons.injEq, Expr.list.injEq, true_and] at e0
  obtain ⟨⟨rfl, -⟩, -⟩ := e0
  have : f = f' := by
    rcases hk with rfl | rfl <;> rcases hk' with h | h <;> cases h <;> rfl
  subst this
  rw [e] at e'
  cases e'
  rfl

theorem isText_det {args : List Expr} {s s' : Str} (h : IsText args s) (h' : IsText args s') : s = s' := by
  obtain ⟨r, h | h⟩ := h <;> obtain ⟨r', h' | h'⟩ := h' <;> rw [h] at h' <;> cases h' <;> rfl

theorem lastOf_det {α : Type} {R : List Expr → α → Prop} (hR : ∀ args b b', R args b → R args b' → b = b')
    {names : List String} {cmds : List Expr} {a b b' : α} (h : LastOf R names cmds a b) (h' : LastOf R names cmds a b') :
    b = b' := by
  refine acts_det ?_ ?_ h h'
  · simp only [List.mem_map]
    rintro _ ⟨n, -, rfl⟩ args a b b' h h'
    exact hR args b b' h h'
  · simp only [List.mem_map]
    rintro _ ⟨n, -, rfl⟩ _ ⟨n', -, rfl⟩ e
    simp only at e
    rw [e]

theorem dataMeans_det {cmds : List Expr} {a b b' : DataRefs} (h : DataMeans cmds a b) (h' : DataMeans cmds a b') : b = b' := by
  have e1 := lastOf_det (R := IsText) (fun _ _ _ h h' => isText_det h h') h.path h'.path
  have e2 := lastOf_det (R := IsText) (fun _ _ _ h h' => isText_det h h') h.format h'.format
  have e3 := lastOf_det (fun _ _ _ h h' => h.trans h'.symm) h.x h'.x
  have e4 := lastOf_det (fun _ _ _ h h' => h.trans h'.symm) h.y h'.y
  cases b; cases b'
  simp only at e1 e2 e3 e4
  subst e1 e2 e3 e4
  rfl

theorem addActs_det {P : PlotEnv φ} {names : List String} {cmds : List Expr} {a b b' : DataBuffer (Option ℝ)}
    (h : Acts (names.map fun n => (n, AddData P)) cmds a b) (h' : Acts (names.map fun n => (n, AddData P)) cmds a b') :
    b = b' := by
  refine acts_det ?_ ?_ h h'
  · simp only [List.mem_map]
    rintro _ ⟨n, -, rfl⟩ args a b b' h h'
    exact addData_det args a b b' h h'
  · simp only [List.mem_map]
    rintro _ ⟨n, -, rfl⟩ _ ⟨n', -, rfl⟩ e
    simp only at e
    rw [e]

theorem configured_ok {α : Type} {run : Except Fail α} {ok : Prop} {means : α → Prop} {loads : α → α → Prop}
    (h : Configured run ok means loads) {c : α} (hc : run = .ok c) : ∃ o, means o ∧ loads o c := by
  by_cases hok : ok
  · obtain ⟨o, h1, h2⟩ := h.2 hok
    exact ⟨o, h1, (h2 c).1 hc⟩
  · exact absurd hc (h.1 hok c)

theorem loadsPoints_det {P : PlotEnv φ} {r : DataRefs} {x₀ y₀ x y x' y' : DataBuffer (Option ℝ)}
    (h : LoadsPoints P r x₀ y₀ x y) (h' : LoadsPoints P r x₀ y₀ x' y') : x = x' ∧ y = y' := by
  obtain ⟨u, e, -⟩ := h
  obtain ⟨u', e', -⟩ := h'
  rw [e] at e'
  cases e'
  exact ⟨rfl, rfl⟩

theorem on_env {P : PlotEnv φ} {L : Layer φ} {s : PlotState φ} (h : On L s) : s.env P = L.env P.stod := by
  obtain ⟨shapes, h⟩ := h
  unfold PlotState.env
  rw [h]
  rfl

theorem lines_det {P : PlotEnv φ} {s s' : PlotState φ} (he : s.env P = s'.env P) (hp : (s.env P).palette ≠ [])
    {args : List Expr} {c c' : LinesConf φ} (h : linesConfigure P s args = .ok c) (h' : linesConfigure P s' args = .ok c') :
    c.x = c'.x ∧ c.y = c'.y := by
  obtain ⟨o, m, x, y, g, u, l, -, -, rfl⟩ := configured_ok (C90_lines P s hp args) h
  obtain ⟨o', m', x', y', g', u', l', -, -, rfl⟩ := configured_ok (C90_lines P s' (he ▸ hp) args) h'
  rw [dataMeans_det m.data m'.data, m.loaded.1, m.loaded.2.1, m.loaded.2.2] at l
  rw [m'.loaded.1, m'.loaded.2.1, m'.loaded.2.2] at l'
  have := l.symm.trans l'
  simp only [Prod.mk.injEq] at this
  exact ⟨this.1.1, this.1.2.1⟩

theorem points_det {P : PlotEnv φ} {s s' : PlotState φ} (he : s.env P = s'.env P) (hp : (s.env P).palette ≠ [])
    {args : List Expr} {c c' : PointsConf φ} (h : pointsConfigure P s args = .ok c)
    (h' : pointsConfigure P s' args = .ok c') : c.x = c'.x ∧ c.y = c'.y := by
  obtain ⟨o, m, x, y, _, _, l, -, -, rfl⟩ := configured_ok (C90_points P s hp args) h
  obtain ⟨o', m', x', y', _, _, l', -, -, rfl⟩ := configured_ok (C90_points P s' (he ▸ hp) args) h'
  rw [dataMeans_det m.data m'.data, m.loaded.1, m.loaded.2.1] at l
  rw [m'.loaded.1, m'.loaded.2.1] at l'
  exact loadsPoints_det l l'

theorem labels_det {P : PlotEnv φ} {s s' : PlotState φ} (he : s.env P = s'.env P) (hp : (s.env P).palette ≠ [])
    {args : List Expr} {c c' : LabelsConf φ} (h : labelsConfigure P s args = .ok c)
    (h' : labelsConfigure P s' args = .ok c') : c.x = c'.x ∧ c.y = c'.y := by
  obtain ⟨o, m, x, y, l, rfl⟩ := configured_ok (C90_labels P s hp args) h
  obtain ⟨o', m', x', y', l', rfl⟩ := configured_ok (C90_labels P s' (he ▸ hp) args) h'
  rw [dataMeans_det m.data m'.data, m.loaded.1, m.loaded.2] at l
  rw [m'.loaded.1, m'.loaded.2] at l'
  exact loadsPoints_det l l'

theorem rectangles_det {P : PlotEnv φ} {s s' : PlotState φ} (he : s.env P = s'.env P) (hp : (s.env P).palette ≠ [])
    {args : List Expr} {c c' : RectanglesConf} (h : rectanglesConfigure P s args = .ok c)
    (h' : rectanglesConfigure P s' args = .ok c') : c.x = c'.x ∧ c.y = c'.y := by
  obtain ⟨o, m, x, y, _, l, -, rfl⟩ := configured_ok (C90_rectangles P s hp args) h
  obtain ⟨o', m', x', y', _, l', -, rfl⟩ := configured_ok (C90_rectangles P s' (he ▸ hp) args) h'
  rw [dataMeans_det m.data m'.data, m.loaded.1, m.loaded.2.1] at l
  rw [m'.loaded.1, m'.loaded.2.1] at l'
  exact loadsPoints_det l l'

theorem vectors_det {P : PlotEnv φ} {s s' : PlotState φ} (he : s.env P = s'.env P) (hp : (s.env P).palette ≠ [])
    {args : List Expr} {c c' : VectorsConf} (h : vectorsConfigure P s args = .ok c)
    (h' : vectorsConfigure P s' args = .ok c') : c.x = c'.x ∧ c.y = c'.y := by
  obtain ⟨o, m, x, y, _, _, l, -, -, rfl⟩ := configured_ok (C90_vectors P s hp args) h
  obtain ⟨o', m', x', y', _, _, l', -, -, rfl⟩ := configured_ok (C90_vectors P s' (he ▸ hp) args) h'
  rw [dataMeans_det m.data m'.data, m.loaded.1, m.loaded.2.1] at l
  rw [m'.loaded.1, m'.loaded.2.1] at l'
  exact loadsPoints_det l l'

theorem bars_det {P : PlotEnv φ} {s s' : PlotState φ} (he : s.env P = s'.env P) (hp : (s.env P).palette ≠ [])
    {args : List Expr} {c c' : BarsConf φ} (h : barsConfigure P s args = .ok c)
    (h' : barsConfigure P s' args = .ok c') :
    c.x = c'.x ∧ c.xoffset = c'.xoffset ∧ c.y = c'.y ∧ c.yoffset = c'.yoffset := by
  obtain ⟨o, m, -, rfl⟩ := configured_ok (C90_bars P s hp args) h
  obtain ⟨o', m', -, rfl⟩ := configured_ok (C90_bars P s' (he ▸ hp) args) h'
  exact ⟨addActs_det (names := ["data-x", "data-x-high"]) m.x m'.x, addActs_det (names := ["data-x-low"]) m.xoffset m'.xoffset,
    addActs_det (names := ["data-y", "data-y-high"]) m.y m'.y, addActs_det (names := ["data-y-low"]) m.yoffset m'.yoffset⟩

theorem areas_det {P : PlotEnv φ} {s s' : PlotState φ} (he : s.env P = s'.env P) (hp : (s.env P).palette ≠ [])
    {args : List Expr} {c c' : AreasConf} (h : areasConfigure P s args = .ok c)
    (h' : areasConfigure P s' args = .ok c') :
    c.x = c'.x ∧ c.xoffset = c'.xoffset ∧ c.y = c'.y ∧ c.yoffset = c'.yoffset := by
  obtain ⟨o, m, x, y, u, l, -, rfl⟩ := configured_ok (C90_areas P s hp args) h
  obtain ⟨o', m', x', y', u', l', -, rfl⟩ := configured_ok (C90_areas P s' (he ▸ hp) args) h'
  rw [dataMeans_det m.data m'.data, addActs_det (names := ["data-x-high"]) m.x m'.x,
    addActs_det (names := ["data-y-high"]) m.y m'.y] at l
  have := l.symm.trans l'
  simp only [Prod.mk.injEq] at this
  exact ⟨this.1.1, addActs_det (names := ["data-x-low"]) m.xoffset m'.xoffset, this.1.2,
    addActs_det (names := ["data-y-low"]) m.yoffset m'.yoffset⟩

theorem errorbars_det {P : PlotEnv φ} {s s' : PlotState φ} (he : s.env P = s'.env P) (hp : (s.env P).palette ≠ [])
    {args : List Expr} {c c' : ErrorbarsConf} (h : errorbarsConfigure P s args = .ok c)
    (h' : errorbarsConfigure P s' args = .ok c') :
    (c.x = c'.x ∧ c.xLow = c'.xLow ∧ c.xHigh = c'.xHigh) ∧ (c.y = c'.y ∧ c.yLow = c'.yLow ∧ c.yHigh = c'.yHigh) := by
  obtain ⟨o, m, _, -, rfl, -⟩ := configured_ok (C90_errorbars P s hp args) h
  obtain ⟨o', m', _, -, rfl, -⟩ := configured_ok (C90_errorbars P s' (he ▸ hp) args) h'
  exact ⟨⟨addActs_det (names := ["data-x"]) m.x m'.x, addActs_det (names := ["data-x-low"]) m.xLow m'.xLow,
    addActs_det (names := ["data-x-high"]) m.xHigh m'.xHigh⟩, addActs_det (names := ["data-y"]) m.y m'.y,
    addActs_det (names := ["data-y-low"]) m.yLow m'.yLow, addActs_det (names := ["data-y-high"]) m.yHigh m'.yHigh⟩

theorem of2 {α : Type} {a a' b b' : α} (h : a = a' ∧ b = b') : [a] = [a'] ∧ [b] = [b'] := by simp [h]
theorem of4 {α : Type} {a a' b b' c c' d d' : α} (h : a = a' ∧ b = b' ∧ c = c' ∧ d = d') :
    [a, b] = [a', b'] ∧ [c, d] = [c', d'] := by simp [h]
theorem of6 {α : Type} {a a' b b' c c' d d' e e' f f' : α} (h : (a = a' ∧ b = b' ∧ c = c') ∧ (d = d' ∧ e = e' ∧ f = f')) :
    [a, b, c] = [a', b', c'] ∧ [d, e, f] = [d', e', f'] := by simp [h]

/-- The data an element shows depends on its options and the page only. -/
theorem shows_det {P : PlotEnv φ} {s s' : PlotState φ} (he : s.env P = s'.env P) (hp : (s.env P).palette ≠ [])
    {args : List Expr} {n : String} {xs ys xs' ys' : List (DataBuffer (Option ℝ))} {sc sc' : Scales}
    (h : Shows P s args n xs ys sc) (h' : Shows P s' args n xs' ys' sc') : xs = xs' ∧ ys = ys' := by
  rcases h with ⟨rfl, h⟩ | ⟨rfl, h⟩ | ⟨rfl, h⟩ | ⟨rfl, h⟩ | ⟨rfl, h⟩ | ⟨rfl, h⟩ | ⟨rfl, h⟩ | ⟨rfl, h⟩ <;>
    rcases h' with ⟨e, h'⟩ | ⟨e, h'⟩ | ⟨e, h'⟩ | ⟨e, h'⟩ | ⟨e, h'⟩ | ⟨e, h'⟩ | ⟨e, h'⟩ | ⟨e, h'⟩ <;>
    first
    | exact absurd e (by decide)
    | exact of4 (areas_det he hp h h')
    | exact of4 (bars_det he hp h h')
    | exact of6 (errorbars_det he hp h h')
    | exact of2 (labels_det he hp h h')
    | exact of2 (lines_det he hp h h')
    | exact of2 (points_det he hp h h')
    | exact of2 (rectangles_det he hp h h')
    | exact of2 (vectors_det he hp h h')

theorem polygons_det {P : PlotEnv φ} {s s' : PlotState φ} (he : s.env P = s'.env P) (hp : (s.env P).palette ≠ [])
    {args : List Expr} {c c' : PolygonsConf} (h : polygonsConfigure P s args = .ok c)
    (h' : polygonsConfigure P s' args = .ok c') : c.polys = c'.polys := by
  obtain ⟨o, m, rfl⟩ := configured_ok (C90_polygons P s hp args) h
  obtain ⟨o', m', rfl⟩ := configured_ok (C90_polygons P s' (he ▸ hp) args) h'
  refine acts_det ?_ ?_ m.polys m'.polys
  · simp only [List.mem_cons, List.not_mem_nil, or_false]
    rintro _ rfl args a b b' h h'
    exact addPolys_det args a b b' h h'
  · simp only [List.mem_cons, List.not_mem_nil, or_false]
    rintro _ rfl _ rfl _
    rfl

/-! ## Fitting -/

theorem limits_insert {S : Set ℝ} {s : Scale} (h : LimitsOf S s.hints) (v : ℝ) :
    LimitsOf (insert v S) (scaleFit s v).hints := by
  rcases h with ⟨rfl, h⟩ | ⟨m, M, h, hm, hM⟩
  · refine .inr ⟨v, v, by simp [scaleFit, fitHints, h], ?_, ?_⟩ <;>
      simp [IsLeast, IsGreatest, lowerBounds, upperBounds]
  · have hh : (scaleFit s v).hints = ⟨some (min m v), some (max M v)⟩ := by
      simp only [scaleFit]
      exact fitHints_some _ _ _ _ (by rw [h]) (by rw [h])
    refine .inr ⟨_, _, hh, ?_, ?_⟩
    · rw [min_comm]; exact hm.insert v
    · rw [max_comm]; exact hM.insert v

theorem limits_fold (vs : List ℝ) : ∀ {S : Set ℝ} {s : Scale}, LimitsOf S s.hints →
    LimitsOf (S ∪ {v | v ∈ vs}) (vs.foldl scaleFit s).hints := by
  induction vs with
  | nil => intro S s h; simpa using h
  | cons v vs ih =>
    intro S s h
    have := ih (limits_insert h v)
    rw [List.foldl_cons]
    convert this using 1
    ext x
    simp only [Set.mem_union, Set.mem_setOf_eq, List.mem_cons, Set.mem_insert_iff]
    tauto

theorem fold_same (vs : List ℝ) (s : Scale) : SameButHints s (vs.foldl scaleFit s) := by
  induction vs generalizing s with
  | nil => exact .refl s
  | cons v vs ih => exact SameButHints.trans (b := scaleFit s v) rfl (ih _)

/-- Fitting values that are inside already changes nothing. -/
theorem fold_inside {S : Set ℝ} (vs : List ℝ) : ∀ {s : Scale}, LimitsOf S s.hints → (∀ v ∈ vs, v ∈ S) →
    vs.foldl scaleFit s = s := by
  induction vs with
  | nil => intro s _ _; rfl
  | cons v vs ih =>
    intro s h hv
    have hs : scaleFit s v = s := by
      rcases h with ⟨rfl, h⟩ | ⟨m, M, h, hm, hM⟩
      · exact absurd (hv v (by simp)) (by simp)
      · have hh : (scaleFit s v).hints = ⟨some (min m v), some (max M v)⟩ := by
          simp only [scaleFit]
          exact fitHints_some _ _ _ _ (by rw [h]) (by rw [h])
        rw [min_eq_left (hm.2 (hv v (by simp))), max_eq_left (hM.2 (hv v (by simp))), ← h] at hh
        have : scaleFit s v = { s with hints := (scaleFit s v).hints } := rfl
        rw [this, hh]
    rw [List.foldl_cons, hs]
    exact ih h fun w hw => hv w (by simp [hw])

theorem mapM_id_some {α : Type} (vs : List (Option α)) (ns : List α) (h : vs.mapM id = some ns) : vs = ns.map some := by
  induction vs generalizing ns with
  | nil => simp at h; simp [h]
  | cons v vs ih =>
    rw [List.mapM_cons] at h
    cases v with
    | none => simp at h
    | some v =>
      cases hm : vs.mapM id with
      | none => rw [hm] at h; simp at h
      | some ms =>
        rw [hm] at h
        simp at h
        subst h
        rw [ih ms hm]
        rfl

theorem fitBuf_ok {P : PlotEnv φ} {b : DataBuffer (Option ℝ)} {s s' : Scale} (hk : s.kind = .linear)
    (h : scaleFitBuf P.toS P.parse b s = (s', none)) :
    ∃ ns : List ℝ, s' = ns.foldl scaleFit s ∧ ∀ v, v ∈ ns ↔ Among P [b] v := by
  unfold scaleFitBuf fitNumbers at h
  rw [hk] at h
  simp only at h
  cases hd : databufToNumbers P.parse b with
  | none => rw [hd] at h; simp at h
  | some vs =>
    rw [hd] at h
    simp only at h
    cases hm : vs.mapM id with
    | none => rw [hm] at h; simp at h
    | some ns =>
      rw [hm] at h
      simp only [Prod.mk.injEq, and_true] at h
      refine ⟨ns, h.symm, fun v => ?_⟩
      have := mapM_id_some vs ns hm
      constructor
      · intro hv
        exact ⟨b, by simp, vs, hd, by rw [this]; simp [hv]⟩
      · rintro ⟨b', hb', vs', hd', hv⟩
        simp only [List.mem_cons, List.not_mem_nil, or_false] at hb'
        subst hb'
        rw [hd] at hd'
        cases hd'
        rw [this] at hv
        simpa using hv

theorem among_cons {P : PlotEnv φ} (b : DataBuffer (Option ℝ)) (bs : List (DataBuffer (Option ℝ))) (v : ℝ) :
    Among P (b :: bs) v ↔ Among P [b] v ∨ Among P bs v := by
  simp only [Among, List.mem_cons, List.not_mem_nil, or_false, exists_eq_left, exists_eq_or_imp]

theorem fitAll_ok {P : PlotEnv φ} {xs ys : List (DataBuffer (Option ℝ))} : ∀ {s s' : Scales}, s.x.kind = .linear →
    s.y.kind = .linear → fitAll P xs ys s = (s', none) →
    ∃ vx vy : List ℝ, s'.x = vx.foldl scaleFit s.x ∧ s'.y = vy.foldl scaleFit s.y ∧ (∀ v, v ∈ vx ↔ Among P xs v) ∧
      ∀ v, v ∈ vy ↔ Among P ys v := by
  induction xs with
  | nil =>
    induction ys with
    | nil =>
      intro s s' _ _ h
      simp only [fitAll, List.map_nil, List.append_nil, tryChain, Prod.mk.injEq, and_true] at h
      subst h
      exact ⟨[], [], rfl, rfl, by simp [Among], by simp [Among]⟩
    | cons b ys ih =>
      intro s s' hx hy h
      simp only [fitAll, List.map_nil, List.nil_append, List.map_cons, tryChain] at h
      cases hb : scaleFitBuf P.toS P.parse b s.y with
      | mk t o =>
        simp only [onY, onPart, hb] at h
        cases o with
        | some f => simp at h
        | none =>
          simp only at h
          obtain ⟨ns, rfl, hn⟩ := fitBuf_ok hy hb
          obtain ⟨vx, vy, e1, e2, e3, e4⟩ := ih (s := { s with y := ns.foldl scaleFit s.y }) (s' := s') hx
            (by have := fold_same ns s.y; unfold SameButHints at this; rw [this]; exact hy) h
          refine ⟨vx, ns ++ vy, e1, by rw [e2, List.foldl_append], e3, fun v => ?_⟩
          rw [List.mem_append, hn, e4, ← among_cons]
  | cons b xs ih =>
    intro s s' hx hy h
    simp only [fitAll, List.map_cons, List.cons_append, tryChain] at h
    cases hb : scaleFitBuf P.toS P.parse b s.x with
    | mk t o =>
      simp only [onX, onPart, hb] at h
      cases o with
      | some f => simp at h
      | none =>
        simp only at h
        obtain ⟨ns, rfl, hn⟩ := fitBuf_ok hx hb
        obtain ⟨vx, vy, e1, e2, e3, e4⟩ := ih (s := { s with x := ns.foldl scaleFit s.x }) (s' := s')
          (by have := fold_same ns s.x; unfold SameButHints at this; rw [this]; exact hx) hy h
        refine ⟨ns ++ vx, vy, by rw [e1, List.foldl_append], e2, fun v => ?_, e4⟩
        rw [List.mem_append, hn, e3, ← among_cons]

/-! ## The preparation -/

/-- The names of the elements that show data. -/
def showing : List String := ["areas", "bars", "errorbars", "labels", "lines", "points", "rectangles", "vectors"]

theorem shows_name {P : PlotEnv φ} {s : PlotState φ} {args : List Expr} {n : String}
    {xs ys : List (DataBuffer (Option ℝ))} {sc : Scales} (h : Shows P s args n xs ys sc) : n ∈ showing := by
  unfold showing
  cases h <;> (rename_i e _; subst e; decide)

/-- What the command shows. -/
def setX (P : PlotEnv φ) (L : Layer φ) (e : Expr) : Set ℝ := {v | ShownX P L e v}
def setY (P : PlotEnv φ) (L : Layer φ) (e : Expr) : Set ℝ := {v | ShownY P L e v}

theorem name_inj {e : Expr} {n m : String} (h : nameOf e = some n.toList) (h' : nameOf e = some m.toList) : n = m :=
  String.toList_inj.1 (Option.some.inj (h.symm.trans h'))

theorem set_shows {P : PlotEnv φ} {L : Layer φ} (hp : L.palette ≠ []) {e : Expr} {n : String}
    (hn : nameOf e = some n.toList) {s : PlotState φ} (hs : On L s) {xs ys : List (DataBuffer (Option ℝ))} {sc : Scales}
    (h : Shows P s (argsOf e) n xs ys sc) : setX P L e = {v | Among P xs v} ∧ setY P L e = {v | Among P ys v} := by
  have hne : n ≠ "polygons" := by
    rintro rfl
    exact absurd (shows_name h) (by decide)
  have hp' : (s.env P).palette ≠ [] := by rw [on_env hs]; exact hp
  constructor
  · ext v
    constructor
    · rintro ⟨s', n', hs', hn', ⟨xs', ys', sc', h', ha⟩ | ⟨rfl, -⟩⟩
      · have := name_inj hn hn'
        subst this
        rw [← (shows_det ((on_env hs).trans (on_env hs').symm) hp' h h').1] at ha
        exact ha
      · exact absurd (name_inj hn hn') hne
    · intro ha
      exact ⟨s, n, hs, hn, .inl ⟨xs, ys, sc, h, ha⟩⟩
  · ext v
    constructor
    · rintro ⟨s', n', hs', hn', ⟨xs', ys', sc', h', ha⟩ | ⟨rfl, -⟩⟩
      · have := name_inj hn hn'
        subst this
        rw [← (shows_det ((on_env hs).trans (on_env hs').symm) hp' h h').2] at ha
        exact ha
      · exact absurd (name_inj hn hn') hne
    · intro ha
      exact ⟨s, n, hs, hn, .inl ⟨xs, ys, sc, h, ha⟩⟩

theorem set_polygons {P : PlotEnv φ} {L : Layer φ} (hp : L.palette ≠ []) {e : Expr}
    (hn : nameOf e = some "polygons".toList) {s : PlotState φ} (hs : On L s) {c : PolygonsConf}
    (h : polygonsConfigure P s (argsOf e) = .ok c) :
    setX P L e = {v | v ∈ (c.polys.flatMap (·.boundary)).map (·.x)} ∧
    setY P L e = {v | v ∈ (c.polys.flatMap (·.boundary)).map (·.y)} := by
  have hp' : (s.env P).palette ≠ [] := by rw [on_env hs]; exact hp
  constructor
  · ext v
    simp only [Set.mem_setOf_eq, List.mem_map, List.mem_flatMap]
    constructor
    · rintro ⟨s', n', hs', hn', ⟨xs', ys', sc', h', ha⟩ | ⟨rfl, c', h', p, hpm, q, hq, rfl⟩⟩
      · have := name_inj hn hn'
        subst this
        exact absurd (shows_name h') (by decide)
      · rw [← polygons_det ((on_env hs).trans (on_env hs').symm) hp' h h'] at hpm
        exact ⟨q, ⟨p, hpm, hq⟩, rfl⟩
    · rintro ⟨q, ⟨p, hpm, hq⟩, rfl⟩
      exact ⟨s, _, hs, hn, .inr ⟨rfl, c, h, p, hpm, q, hq, rfl⟩⟩
  · ext v
    simp only [Set.mem_setOf_eq, List.mem_map, List.mem_flatMap]
    constructor
    · rintro ⟨s', n', hs', hn', ⟨xs', ys', sc', h', ha⟩ | ⟨rfl, c', h', p, hpm, q, hq, rfl⟩⟩
      · have := name_inj hn hn'
        subst this
        exact absurd (shows_name h') (by decide)
      · rw [← polygons_det ((on_env hs).trans (on_env hs').symm) hp' h h'] at hpm
        exact ⟨q, ⟨p, hpm, hq⟩, rfl⟩
    · rintro ⟨q, ⟨p, hpm, hq⟩, rfl⟩
      exact ⟨s, _, hs, hn, .inr ⟨rfl, c, h, p, hpm, q, hq, rfl⟩⟩

theorem set_other {P : PlotEnv φ} {L : Layer φ} {e : Expr} (h : ∀ n ∈ "polygons" :: showing, nameOf e ≠ some n.toList) :
    setX P L e = ∅ ∧ setY P L e = ∅ := by
  constructor
  · ext v
    simp only [Set.mem_empty_iff_false, iff_false]
    rintro ⟨s', n', hs', hn', ⟨xs', ys', sc', h', ha⟩ | ⟨rfl, -⟩⟩
    · exact h n' (.tail _ (shows_name h')) hn'
    · exact h _ (.head _) hn'
  · ext v
    simp only [Set.mem_empty_iff_false, iff_false]
    rintro ⟨s', n', hs', hn', ⟨xs', ys', sc', h', ha⟩ | ⟨rfl, -⟩⟩
    · exact h n' (.tail _ (shows_name h')) hn'
    · exact h _ (.head _) hn'

/-- Linear scales with the limits of these numbers. -/
structure Fits (S T : Set ℝ) (s : Scales) : Prop where
  kx : s.x.kind = .linear
  ky : s.y.kind = .linear
  x : LimitsOf S s.x.hints
  y : LimitsOf T s.y.hints

theorem fits_all {P : PlotEnv φ} {xs ys : List (DataBuffer (Option ℝ))} {s s' : Scales} {S T : Set ℝ} (h : Fits S T s)
    (hf : fitAll P xs ys s = (s', none)) : Fits (S ∪ {v | Among P xs v}) (T ∪ {v | Among P ys v}) s' := by
  obtain ⟨vx, vy, e1, e2, e3, e4⟩ := fitAll_ok h.kx h.ky hf
  have k1 := fold_same vx s.x
  have k2 := fold_same vy s.y
  unfold SameButHints at k1 k2
  refine ⟨by rw [e1, k1]; exact h.kx, by rw [e2, k2]; exact h.ky, ?_, ?_⟩
  · rw [e1]
    have := limits_fold vx h.x
    simpa only [e3] using this
  · rw [e2]
    have := limits_fold vy h.y
    simpa only [e4] using this

theorem fitPolys_fold (ps : List Poly2) (s : Scales) : fitPolys ps s =
    ⟨((ps.flatMap (·.boundary)).map (·.x)).foldl scaleFit s.x, ((ps.flatMap (·.boundary)).map (·.y)).foldl scaleFit s.y⟩ := by
  rw [fitPolys_eq, List.foldl_map, List.foldl_map]

/-- The options of an element do not touch the automatic limits of the scales. -/
theorem scaleWord_hints {P : PlotEnv φ} {e : Expr} {a b : Scale} (h : ScaleWord P e a b) : b.hints = a.hints := by
  cases h <;> rfl

theorem scaleWords_hints {P : PlotEnv φ} {es : List Expr} {a b : Scale} (h : ScaleWords P es a b) : b.hints = a.hints := by
  induction h with
  | nil => rfl
  | cons h _ ih => exact ih.trans (scaleWord_hints h)

theorem acts_keep {α β : Type} (g : α → β) {t : List (String × Effect α)} (ht : ∀ p ∈ t, ∀ args a b, p.2 args a b → g b = g a)
    {cmds : List Expr} {a b : α} (h : Acts t cmds a b) : g b = g a := by
  induction h with
  | nil => rfl
  | act _ hm hb _ ih => exact ih.trans (ht _ hm _ _ _ hb)
  | skip _ _ ih => exact ih

theorem acts_skip {α : Type} {t : List (String × Effect α)} {cmds : List Expr}
    (hn : ∀ c ∈ cmds, ∀ p ∈ t, nameOf c ≠ some (String.toList p.1)) {a b : α} (h : Acts t cmds a b) : b = a := by
  induction h with
  | nil => rfl
  | act hc hm _ _ _ => exact absurd hc (hn _ (.head _) _ hm)
  | skip _ _ ih => exact ih fun c hc => hn c (.tail _ hc)

theorem scaleX_hints {P : PlotEnv φ} {E : ReadEnv} {cmds : List Expr} {a b : Scale} (h : Acts (scaleX P E) cmds a b) :
    b.hints = a.hints := by
  refine acts_keep (·.hints) ?_ h
  intro p hp args a b hb
  simp only [scaleX, List.mem_cons, List.not_mem_nil, or_false] at hp
  rcases hp with rfl | rfl | rfl | rfl | rfl
  · obtain ⟨_, _, _, _, _, _, _, rfl⟩ := hb; rfl
  · obtain ⟨_, _, rfl⟩ := hb; rfl
  · obtain ⟨_, _, rfl⟩ := hb; rfl
  · exact scaleWords_hints hb
  · obtain ⟨_, _, rfl⟩ := hb; rfl

theorem scaleY_hints {P : PlotEnv φ} {E : ReadEnv} {cmds : List Expr} {a b : Scale} (h : Acts (scaleY P E) cmds a b) :
    b.hints = a.hints := by
  refine acts_keep (·.hints) ?_ h
  intro p hp args a b hb
  simp only [scaleY, List.mem_cons, List.not_mem_nil, or_false] at hp
  rcases hp with rfl | rfl | rfl | rfl | rfl
  · obtain ⟨_, _, _, _, _, _, _, rfl⟩ := hb; rfl
  · obtain ⟨_, _, rfl⟩ := hb; rfl
  · obtain ⟨_, _, rfl⟩ := hb; rfl
  · exact scaleWords_hints hb
  · obtain ⟨_, _, rfl⟩ := hb; rfl

theorem polygons_scales {P : PlotEnv φ} {s : PlotState φ} (hp : (s.env P).palette ≠ []) {args : List Expr} {c : PolygonsConf}
    (h : polygonsConfigure P s args = .ok c) : ∃ o : Scales, o.x.hints = s.scales.x.hints ∧ o.y.hints = s.scales.y.hints ∧
      Acts (scaleX P (s.env P)) args s.scales.x o.x ∧ Acts (scaleY P (s.env P)) args s.scales.y o.y ∧
      c.scales = fitPolys c.polys o := by
  obtain ⟨o, m, rfl⟩ := configured_ok (C90_polygons P s hp args) h
  have widen : ∀ {t t' : List (String × Effect Scale)} {cs : List Expr} {a b : Scale}, Acts t cs a b → (∀ p ∈ t, p ∈ t') →
      (∀ c ∈ cs, ∀ p ∈ t', p ∉ t → nameOf c ≠ some (String.toList p.1)) → Acts t' cs a b := by
    intro t t' cs a b h h1
    induction h with
    | nil => intro _; exact .nil _
    | act hn hm hb _ ih => intro h2; exact .act hn (h1 _ hm) hb (ih fun c hc => h2 c (.tail _ hc))
    | skip hs _ ih =>
      intro h2
      refine .skip (fun p hp => ?_) (ih fun c hc => h2 c (.tail _ hc))
      by_cases hm : p ∈ t
      · exact hs p hm
      · exact h2 _ (.head _) p hp hm
  have wx : Acts (scaleX P (s.env P)) args s.scales.x o.scales.x := by
    refine widen m.x ?_ ?_
    · simp only [scaleX, List.mem_cons, List.not_mem_nil, or_false]; tauto
    · intro c hc p hp hpn
      simp only [scaleX, List.mem_cons, List.not_mem_nil, or_false] at hp hpn
      rcases hp with rfl | rfl | rfl | rfl | rfl
      · exact absurd (.inl rfl) hpn
      · exact absurd (.inr (.inl rfl)) hpn
      · exact absurd (.inr (.inr (.inl rfl))) hpn
      · exact absurd (.inr (.inr (.inr rfl))) hpn
      · obtain ⟨n, hn, hnc⟩ := m.known c hc
        intro hc'
        have := name_inj hnc hc'
        subst this
        revert hn; dsimp only; decide
  have wy : Acts (scaleY P (s.env P)) args s.scales.y o.scales.y := by
    refine widen m.y ?_ ?_
    · simp only [scaleY, List.mem_cons, List.not_mem_nil, or_false]; tauto
    · intro c hc p hp hpn
      simp only [scaleY, List.mem_cons, List.not_mem_nil, or_false] at hp hpn
      rcases hp with rfl | rfl | rfl | rfl | rfl
      · exact absurd (.inl rfl) hpn
      · exact absurd (.inr (.inl rfl)) hpn
      · exact absurd (.inr (.inr (.inl rfl))) hpn
      · exact absurd (.inr (.inr (.inr rfl))) hpn
      · obtain ⟨n, hn, hnc⟩ := m.known c hc
        intro hc'
        have := name_inj hnc hc'
        subst this
        revert hn; dsimp only; decide
  exact ⟨o.scales, scaleX_hints wx, scaleY_hints wy, wx, wy, rfl⟩

theorem prepare_step {P : PlotEnv φ} {L : Layer φ} (hp : L.palette ≠ []) {E : ReadEnv} {e : Expr} {n : Str}
    {h : Handler (PlotState φ) Fail} (hn : nameOf e = some n) (hf : optTable (prepareTable P E) n = some h)
    (hnx : n ≠ "scale-x".toList) (hny : n ≠ "scale-y".toList) {s s' : PlotState φ} (hs : s.layer = L) {S T : Set ℝ}
    (hfit : Fits S T s.scales) (hrun : h (argsOf e) s = (s', none)) :
    Fits (S ∪ setX P L e) (T ∪ setY P L e) s'.scales := by
  have hon : On L s := ⟨[], by rw [hs]; simp [draw]⟩
  obtain ⟨p, hpm, rfl, rfl⟩ := optTable_some hf
  have data : ∀ {κ : Type} {configure : PlotState φ → List Expr → Except Fail κ}
      {xs ys : κ → List (DataBuffer (Option ℝ))} {sc : κ → Scales},
      (∀ c, configure s (argsOf e) = .ok c → Shows P s (argsOf e) p.1 (xs c) (ys c) (sc c)) →
      withConfig configure (fun c => onPart (·.scales) (fun s v => { s with scales := v })
        (fun _ => fitAll P (xs c) (ys c)) []) (argsOf e) s = (s', none) →
      Fits (S ∪ setX P L e) (T ∪ setY P L e) s'.scales := by
    intro κ configure xs ys sc hsh hrun
    unfold withConfig at hrun
    cases hc : configure s (argsOf e) with
    | error f => rw [hc] at hrun; simp at hrun
    | ok c =>
      rw [hc] at hrun
      simp only [onPart] at hrun
      obtain ⟨e1, e2⟩ := set_shows hp hn hon (hsh c hc)
      rw [e1, e2]
      cases hfa : fitAll P (xs c) (ys c) s.scales with
      | mk t o =>
        rw [hfa] at hrun
        simp only [Prod.mk.injEq] at hrun
        obtain ⟨rfl, rfl⟩ := hrun
        exact fits_all hfit hfa
  have other : (∀ n ∈ "polygons" :: showing, p.1 ≠ n) → Fits S T s'.scales →
      Fits (S ∪ setX P L e) (T ∪ setY P L e) s'.scales := by
    intro h1 h2
    obtain ⟨e1, e2⟩ := set_other (P := P) (L := L) (e := e) fun n hm hne => h1 n hm (name_inj hn hne)
    rw [e1, e2, Set.union_empty, Set.union_empty]
    exact h2
  have hlim : ∀ g : Handler Scale Fail, (∀ args a, (g args a).1.kind = a.kind ∧ (g args a).1.hints = a.hints) →
      (p.2 = onPart (·.scales) (fun s v => { s with scales := v }) (onX g) ∨
       p.2 = onPart (·.scales) (fun s v => { s with scales := v }) (onY g)) → Fits S T s'.scales := by
    intro g hg hor
    rcases hor with h | h <;> rw [h] at hrun <;> simp only [onPart, onX, onY, Prod.mk.injEq] at hrun <;>
      obtain ⟨rfl, -⟩ := hrun
    · exact ⟨(hg _ _).1.trans hfit.kx, hfit.ky, by simp only [(hg _ _).2]; exact hfit.x, hfit.y⟩
    · exact ⟨hfit.kx, (hg _ _).1.trans hfit.ky, hfit.x, by simp only [(hg _ _).2]; exact hfit.y⟩
  have g1 : ∀ args a, (limitPair E args a).1.kind = a.kind ∧ (limitPair E args a).1.hints = a.hints := fun _ _ => ⟨rfl, rfl⟩
  have g2 : ∀ args a, (limitMin E args a).1.kind = a.kind ∧ (limitMin E args a).1.hints = a.hints := by
    intro args a; unfold limitMin field; split <;> exact ⟨rfl, rfl⟩
  have g3 : ∀ args a, (limitMax E args a).1.kind = a.kind ∧ (limitMax E args a).1.hints = a.hints := by
    intro args a; unfold limitMax field; split <;> exact ⟨rfl, rfl⟩
  have g4 : ∀ args a, (scalePadding E args a).1.kind = a.kind ∧ (scalePadding E args a).1.hints = a.hints := by
    intro args a; unfold scalePadding field; split <;> exact ⟨rfl, rfl⟩
  simp only [prepareTable, plotScaleOpts, liftOpts, scaleOpts, limitOpts, List.map_append, List.map_cons, List.map_nil,
    List.cons_append, List.nil_append, List.mem_cons, List.not_mem_nil, or_false] at hpm
  rcases hpm with rfl | rfl | rfl | rfl | rfl | rfl | rfl | rfl | rfl | rfl | rfl | rfl | rfl | rfl | rfl | rfl | rfl | rfl | rfl
  · exact other (by dsimp only; decide) (hlim _ g1 (.inl rfl))
  · exact other (by dsimp only; decide) (hlim _ g2 (.inl rfl))
  · exact other (by dsimp only; decide) (hlim _ g3 (.inl rfl))
  · exact other (by dsimp only; decide) (hlim _ g1 (.inr rfl))
  · exact other (by dsimp only; decide) (hlim _ g2 (.inr rfl))
  · exact other (by dsimp only; decide) (hlim _ g3 (.inr rfl))
  · exact absurd rfl hnx
  · exact absurd rfl hny
  · exact other (by dsimp only; decide) (hlim _ g4 (.inl rfl))
  · exact other (by dsimp only; decide) (hlim _ g4 (.inr rfl))
  · exact data (fun c hc => .areas rfl hc) hrun
  · exact data (fun c hc => .bars rfl hc) hrun
  · exact data (fun c hc => .errorbars rfl hc) hrun
  · exact data (fun c hc => .labels rfl hc) hrun
  · exact data (fun c hc => .lines rfl hc) hrun
  · exact data (fun c hc => .points rfl hc) hrun
  · unfold polygonsAutorange withConfig at hrun
    cases hc : polygonsConfigure P s (argsOf e) with
    | error f => simp only [hc] at hrun; simp at hrun
    | ok c =>
      simp only [hc, Prod.mk.injEq, and_true] at hrun
      subst hrun
      obtain ⟨e1, e2⟩ := set_polygons hp hn hon hc
      rw [e1, e2]
      obtain ⟨o, o1, o2, -, -, o3⟩ := polygons_scales (by rw [on_env hon]; exact hp) hc
      rw [fitPolys_fold] at o3
      refine ⟨hfit.kx, hfit.ky, ?_, ?_⟩
      · show LimitsOf _ c.scales.x.hints
        rw [o3]
        exact limits_fold _ (by rw [o1]; exact hfit.x)
      · show LimitsOf _ c.scales.y.hints
        rw [o3]
        exact limits_fold _ (by rw [o2]; exact hfit.y)
  · exact data (fun c hc => .rectangles rfl hc) hrun
  · exact data (fun c hc => .vectors rfl hc) hrun

theorem prepare_fits {P : PlotEnv φ} {L : Layer φ} (hp : L.palette ≠ []) {E : ReadEnv} {cmds : List Expr}
    {s s' : PlotState φ} (he : Executed (optTable (prepareTable P E)) cmds s s') (hw : Without ["scale-x", "scale-y"] cmds)
    (hs : s.layer = L) : ∀ {S T : Set ℝ}, Fits S T s.scales →
      Fits (S ∪ {v | ∃ e ∈ cmds, ShownX P L e v}) (T ∪ {v | ∃ e ∈ cmds, ShownY P L e v}) s'.scales := by
  induction he with
  | nil s => intro S T h; simpa using h
  | @cons name args rest s s₁ s' h hv hf hr _ ih =>
    intro S T hfit
    have hn : nameOf (.list (name :: args)) = some name.getValue := nameOf_isValue hv args
    have hx : name.getValue ≠ "scale-x".toList := fun hc => hw _ (.head _) "scale-x" (by simp) (by rw [hn, hc])
    have hy : name.getValue ≠ "scale-y".toList := fun hc => hw _ (.head _) "scale-y" (by simp) (by rw [hn, hc])
    have h1 := prepare_step hp hn hf hx hy hs hfit hr
    have hl : s₁.layer = L := by
      have := prepares_table P E _ _ hf args s
      rw [hr] at this
      exact (congrArg PlotState.layer this).trans hs
    have h2 := ih (fun e he => hw e (.tail _ he)) hl h1
    convert h2 using 1
    · ext v
      simp only [setX, Set.mem_union, Set.mem_setOf_eq, List.mem_cons, exists_eq_or_imp]
      tauto
    · ext v
      simp only [setY, Set.mem_union, Set.mem_setOf_eq, List.mem_cons, exists_eq_or_imp]
      tauto

/-- A command that shows something is known to the preparation. -/
theorem shown_known {P : PlotEnv φ} {E : ReadEnv} {e : Expr} {n : String} (hn : nameOf e = some n.toList)
    (h : n ∈ "polygons" :: showing) : isKnown (optTable (prepareTable P E)) e = true := by
  obtain ⟨m, args, rfl, hm, hmn⟩ := nameOf_some hn
  simp only [isKnown, hm, hmn, Bool.true_and]
  simp only [showing, List.mem_cons, List.not_mem_nil, or_false] at h
  rcases h with rfl | rfl | rfl | rfl | rfl | rfl | rfl | rfl | rfl
  · rw [prepare_polygons]; rfl
  · rw [prepare_areas]; rfl
  · rw [prepare_bars]; rfl
  · rw [prepare_errorbars]; rfl
  · rw [prepare_labels]; rfl
  · rw [prepare_lines]; rfl
  · rw [prepare_points]; rfl
  · rw [prepare_rectangles]; rfl
  · rw [prepare_vectors]; rfl

theorem shownX_name {P : PlotEnv φ} {L : Layer φ} {e : Expr} {v : ℝ} (h : ShownX P L e v) :
    ∃ n ∈ "polygons" :: showing, nameOf e = some n.toList := by
  obtain ⟨s', n', hs', hn', ⟨xs', ys', sc', h', ha⟩ | ⟨rfl, -⟩⟩ := h
  · exact ⟨n', .tail _ (shows_name h'), hn'⟩
  · exact ⟨_, .head _, hn'⟩

theorem shownY_name {P : PlotEnv φ} {L : Layer φ} {e : Expr} {v : ℝ} (h : ShownY P L e v) :
    ∃ n ∈ "polygons" :: showing, nameOf e = some n.toList := by
  obtain ⟨s', n', hs', hn', ⟨xs', ys', sc', h', ha⟩ | ⟨rfl, -⟩⟩ := h
  · exact ⟨n', .tail _ (shows_name h'), hn'⟩
  · exact ⟨_, .head _, hn'⟩

/-- C89: unless the scales are changed, the automatic limits of a plot are the smallest and the largest number among the
data of all its elements, in whatever order they stand. -/
theorem C89_limits (P : PlotEnv φ) (cmds : List Expr) (L : Layer φ) (hp : L.palette ≠ []) (s : PlotState φ)
    (hprep : plotPrepare P cmds { layer := L } = (s, none)) (hw : Without ["scale-x", "scale-y"] cmds) :
    s.scales.x.kind = .linear ∧ LimitsOf {v | ∃ e ∈ cmds, ShownX P L e v} s.scales.x.hints ∧
    s.scales.y.kind = .linear ∧ LimitsOf {v | ∃ e ∈ cmds, ShownY P L e v} s.scales.y.hints := by
  unfold plotPrepare at hprep
  obtain ⟨-, hex⟩ := (walkSkip_ok _ _ _ _).1 hprep
  have h0 : Fits ∅ ∅ ({ layer := L } : PlotState φ).scales := ⟨rfl, rfl, .inl ⟨rfl, rfl⟩, .inl ⟨rfl, rfl⟩⟩
  have h := prepare_fits hp hex (fun e he => hw e (List.mem_filter.1 he).1) rfl h0
  simp only [Set.empty_union] at h
  have ex : {v | ∃ e ∈ cmds, ShownX P L e v} = {v | ∃ e ∈ cmds.filter (isKnown (optTable (prepareTable P
      (PlotState.env { layer := L } P)))), ShownX P L e v} := by
    ext v
    constructor
    · rintro ⟨e, he, h⟩
      obtain ⟨n, hn, hne⟩ := shownX_name h
      exact ⟨e, List.mem_filter.2 ⟨he, shown_known hne hn⟩, h⟩
    · rintro ⟨e, he, h⟩
      exact ⟨e, (List.mem_filter.1 he).1, h⟩
  have ey : {v | ∃ e ∈ cmds, ShownY P L e v} = {v | ∃ e ∈ cmds.filter (isKnown (optTable (prepareTable P
      (PlotState.env { layer := L } P)))), ShownY P L e v} := by
    ext v
    constructor
    · rintro ⟨e, he, h⟩
      obtain ⟨n, hn, hne⟩ := shownY_name h
      exact ⟨e, List.mem_filter.2 ⟨he, shown_known hne hn⟩, h⟩
    · rintro ⟨e, he, h⟩
      exact ⟨e, (List.mem_filter.1 he).1, h⟩
  rw [ex, ey]
  exact ⟨h.kx, h.x, h.ky, h.y⟩

/-! ## The drawing -/

theorem walkMap_inv {σ ε : Type} {fns : HandlerMap σ ε} {I : σ → Prop} (cmds : List Expr)
    (hh : ∀ e ∈ cmds, ∀ n h, nameOf e = some n → fns n = some h → ∀ s, I s → I (h (argsOf e) s).1) :
    ∀ u s, I s → I (walkMap fns u cmds s).1 := by
  induction cmds with
  | nil => intro u s hs; exact hs
  | cons e rest ih =>
    intro u s hs
    have ih := ih fun e he => hh e (.tail _ he)
    unfold walkMap
    split
    · rename_i hv
      split
      · split
        · split
          · split
            · exact ih _ _ hs
            · exact ih _ _ hs
          · exact hs
        · rename_i hfn fn hf
          have := hh _ (.head _) _ _ (nameOf_isValue (by assumption) _) hf s hs
          simp only [argsOf] at this
          split
          · rename_i s' he
            rw [he] at this
            exact ih _ _ this
          · rename_i s' err he
            rw [he] at this
            exact this
      · exact hs
    · exact hs
    · exact hs

theorem scales_withConfig {κ : Type} (configure : PlotState φ → List Expr → Except Fail κ)
    (k : κ → PlotState φ → PlotState φ × Option Fail) (h : ∀ c s, (k c s).1.scales = s.scales)
    (args : List Expr) (s : PlotState φ) : (withConfig configure k args s).1.scales = s.scales := by
  unfold withConfig
  split
  · rfl
  · exact h _ s

theorem scales_axis (P : PlotEnv φ) (a : AxisDef φ) (s : PlotState φ) : (plotAxis P a s).1.scales = s.scales := by
  unfold plotAxis; rfl

theorem scales_axisIf (P : PlotEnv φ) (a : AxisDef φ) (s : PlotState φ) : (plotAxisIf P a s).1.scales = s.scales := by
  unfold plotAxisIf
  split
  · exact scales_axis ..
  · rfl

/-- Apart from polygons, nothing that is drawn changes the scales of the plot. -/
theorem scales_table (P : PlotEnv φ) (E : ReadEnv) (n : Str) (h : Handler (PlotState φ) Fail)
    (hf : optTable (plotDrawTable P E) n = some h) (args : List Expr) (s : PlotState φ) :
    (h args s).1.scales = s.scales ∨ (n = "polygons".toList ∧ h = polygonsCmd P) := by
  obtain ⟨p, hp, hpn, rfl⟩ := optTable_some hf
  simp only [plotDrawTable, List.mem_cons, List.not_mem_nil, or_false] at hp
  rcases hp with rfl | rfl | rfl | rfl | rfl | rfl | rfl | rfl | rfl | rfl | rfl | rfl | rfl | rfl | rfl | rfl | rfl | rfl | rfl
  · exact .inl rfl
  · exact .inl rfl
  · exact .inl rfl
  · exact .inl rfl
  · exact .inl rfl
  · refine .inl (scales_withConfig _ _ (fun c s => ?_) _ _)
    unfold axesRender
    split
    · rfl
    · rename_i box _
      exact tryChain_rel (R := fun a b : PlotState φ => b.scales = a.scales) (fun _ => rfl)
        (fun _ _ _ h h' => h'.trans h) _ (by
          simp only [List.mem_cons, List.not_mem_nil, or_false]
          rintro o (rfl | rfl | rfl | rfl) s <;> exact scales_axisIf ..) { s with layout := s.layout ++ [box] }
  · exact .inl (scales_withConfig _ _ (fun c s => scales_axis P c s) _ _)
  · refine .inl (scales_withConfig _ _ (fun c s => ?_) _ _)
    unfold gridRender
    split <;> rfl
  · refine .inl (scales_withConfig _ _ (fun c s => ?_) args s)
    rfl
  · refine .inl (scales_withConfig _ _ (fun c s => ?_) _ _)
    unfold legendRender
    split <;> rfl
  · refine .inl (scales_withConfig _ _ (fun c s => ?_) _ _)
    unfold areasRender
    split
    · rfl
    · split <;> split <;> rfl
  · refine .inl (scales_withConfig _ _ (fun c s => ?_) _ _)
    unfold barsRender
    split <;> rfl
  · refine .inl (scales_withConfig _ _ (fun c s => ?_) _ _)
    unfold errorbarsRender
    split <;> rfl
  · refine .inl (scales_withConfig _ _ (fun c s => ?_) _ _)
    unfold labelsRender
    split
    · rfl
    · split <;> rfl
  · refine .inl (scales_withConfig _ _ (fun c s => ?_) _ _)
    unfold linesRender
    split
    · rfl
    · split <;> rfl
  · refine .inl (scales_withConfig _ _ (fun c s => ?_) _ _)
    unfold pointsRender
    split
    · rfl
    · split <;> rfl
  · exact .inr ⟨hpn.symm, rfl⟩
  · refine .inl (scales_withConfig _ _ (fun c s => ?_) _ _)
    unfold rectanglesRender
    split
    · rfl
    · split <;> rfl
  · refine .inl (scales_withConfig _ _ (fun c s => ?_) _ _)
    unfold vectorsRender
    split <;> rfl

theorem on_trans {L : Layer φ} {s s' : PlotState φ} (h : On L s) (h' : Adds s.layer s'.layer) : On L s' := by
  obtain ⟨a, ha⟩ := h
  obtain ⟨b, hb⟩ := h'
  exact ⟨a ++ b, by rw [hb, ha]; simp [draw, List.append_assoc]⟩

/-- C89: while the plot is drawn its scales stay as they were prepared: everything is drawn with the same limits, whatever
has been drawn before it. -/
theorem C89_same_limits (P : PlotEnv φ) (cmds : List Expr) (L : Layer φ) (hp : L.palette ≠ []) (s : PlotState φ)
    (hprep : plotPrepare P cmds { layer := L } = (s, none)) (hw : Without ["scale-x", "scale-y"] cmds)
    (pre : List Expr) (hpre : ∀ e ∈ pre, e ∈ cmds) : (plotDraw P pre s).1.scales = s.scales ∧ On L (plotDraw P pre s).1 := by
  obtain ⟨-, hx, -, hy⟩ := C89_limits P cmds L hp s hprep hw
  have h1 := prepare_frame P cmds { layer := L }
  rw [hprep] at h1
  have h2 : s.layer = L := congrArg PlotState.layer h1
  unfold plotDraw
  rw [walkSkip_eq]
  refine walkMap_inv (I := fun t : PlotState φ => t.scales = s.scales ∧ On L t) pre ?_ _ s
    ⟨rfl, [], by rw [h2]; simp [draw]⟩
  rintro e he n h hn hf t ⟨ht, hon⟩
  refine ⟨?_, on_trans hon (draws_table P _ n h hf _ t).adds⟩
  rcases scales_table P _ n h hf (argsOf e) t with h3 | ⟨rfl, rfl⟩
  · rw [h3, ht]
  · unfold polygonsCmd withConfig
    cases hc : polygonsConfigure P t (argsOf e) with
    | error f => exact ht
    | ok c =>
      have hpt : (t.env P).palette ≠ [] := by rw [on_env hon]; exact hp
      obtain ⟨o, o1, o2, -, -, o3⟩ := polygons_scales hpt hc
      obtain ⟨e1, e2⟩ := set_polygons hp hn hon hc
      rw [fitPolys_fold] at o3
      have k1 : c.scales.x = o.x := by
        rw [o3]
        refine fold_inside (S := {v | ∃ e ∈ cmds, ShownX P L e v}) _ (by rw [o1, ht]; exact hx) fun v hv => ?_
        exact ⟨e, hpre e he, (e1 ▸ hv : v ∈ setX P L e)⟩
      have k2 : c.scales.y = o.y := by
        rw [o3]
        refine fold_inside (S := {v | ∃ e ∈ cmds, ShownY P L e v}) _ (by rw [o2, ht]; exact hy) fun v hv => ?_
        exact ⟨e, hpre e he, (e2 ▸ hv : v ∈ setY P L e)⟩
      have k3 : (shareHints c.scales t).scales = t.scales := by
        unfold shareHints
        simp only [k1, k2, o1, o2]
      simp only
      split
      · rw [k3, ht]
      · show (shareHints c.scales t).scales = _
        rw [k3, ht]

/-! ## Everything is inside -/

theorem shows_scales {P : PlotEnv φ} {s : PlotState φ} (hp : (s.env P).palette ≠ []) {args : List Expr} {n : String}
    {xs ys : List (DataBuffer (Option ℝ))} {sc : Scales} (h : Shows P s args n xs ys sc) :
    Acts (scaleX P (s.env P)) args s.scales.x sc.x ∧ Acts (scaleY P (s.env P)) args s.scales.y sc.y := by
  cases h with
  | areas _ h => obtain ⟨o, m, x, y, u, l, -, rfl⟩ := configured_ok (C90_areas P s hp args) h; exact ⟨m.scales.x, m.scales.y⟩
  | bars _ h => obtain ⟨o, m, -, rfl⟩ := configured_ok (C90_bars P s hp args) h; exact ⟨m.scales.x, m.scales.y⟩
  | errorbars _ h =>
    obtain ⟨o, m, _, -, rfl, -⟩ := configured_ok (C90_errorbars P s hp args) h; exact ⟨m.scales.x, m.scales.y⟩
  | labels _ h => obtain ⟨o, m, x, y, l, rfl⟩ := configured_ok (C90_labels P s hp args) h; exact ⟨m.scales.x, m.scales.y⟩
  | lines _ h =>
    obtain ⟨o, m, x, y, g, u, l, -, -, rfl⟩ := configured_ok (C90_lines P s hp args) h; exact ⟨m.scales.x, m.scales.y⟩
  | points _ h =>
    obtain ⟨o, m, x, y, _, _, l, -, -, rfl⟩ := configured_ok (C90_points P s hp args) h; exact ⟨m.scales.x, m.scales.y⟩
  | rectangles _ h =>
    obtain ⟨o, m, x, y, _, l, -, rfl⟩ := configured_ok (C90_rectangles P s hp args) h; exact ⟨m.scales.x, m.scales.y⟩
  | vectors _ h =>
    obtain ⟨o, m, x, y, _, _, l, -, -, rfl⟩ := configured_ok (C90_vectors P s hp args) h; exact ⟨m.scales.x, m.scales.y⟩

theorem translate_inside {P : PlotEnv φ} {S : Set ℝ} {s : Scale} (ha : Automatic s) (hl : LimitsOf S s.hints)
    {b : DataBuffer (Option ℝ)} (hb : ∀ v, Among P [b] v → v ∈ S) {ps : List ℝ} (h : translateBuf P s b = .ok ps) :
    ∀ p ∈ ps, 0 ≤ p ∧ p ≤ 1 := by
  obtain ⟨hk, hmin, hmax, hpad⟩ := ha
  unfold translateBuf translatevBuf at h
  rw [hk] at h
  simp only at h
  cases hf : firstNonNumber b.text b.index with
  | none => simp [hf] at h
  | some o =>
    cases o with
    | some t => simp [hf] at h
    | none =>
      cases hd : databufToNumbers P.parse b with
      | none => simp [hf, hd] at h
      | some vs =>
        simp only [hf, hd] at h
        cases hm : (vs.map (translateValue .exact s)).mapM id with
        | none => simp [hm] at h
        | some ns =>
          simp only [hm, Except.ok.injEq] at h
          subst h
          have hmm := mapM_id_some _ _ hm
          intro p hp
          have hp1 : some p ∈ vs.map (translateValue .exact s) := by rw [hmm]; simp [hp]
          obtain ⟨v, hv, hvp⟩ := List.mem_map.1 hp1
          unfold translateValue at hvp
          cases v with
          | none => simp at hvp
          | some v =>
            simp only [Option.bind_some] at hvp
            have hvS := hb v ⟨b, by simp, vs, hd, hv⟩
            rcases hl with ⟨rfl, -⟩ | ⟨m, M, hh, h1, h2⟩
            · exact absurd hvS (by simp)
            · have e1 : scaleMin .exact s = m - s.padding := by simp [scaleMin, hh, hmin]
              have e2 : scaleMax .exact s = M + s.padding := by simp [scaleMax, hh, hmax]
              have l1 := h1.2 hvS
              have l2 := h2.2 hvS
              by_cases hlt : scaleMin .exact s < scaleMax .exact s
              · obtain ⟨-, -, -, hin⟩ := C20_linear_any_rounding .exact Arith.exact_good s hk
                  (by rw [Arith.exact_d]; linarith)
                obtain ⟨q, hq, hq1, hq2⟩ := hin v (by linarith) (by linarith)
                rw [hvp] at hq
                cases hq
                exact ⟨hq1, hq2⟩
              · have h0 : scaleMax .exact s - scaleMin .exact s = 0 := by
                  rw [e1, e2] at hlt ⊢
                  linarith [h1.2 h2.1]
                simp [scaleTranslate, hk, translateLinear, h0] at hvp

/-- C89: with automatic limits, all data of all elements lie inside the plot area, for every element of the plot at the
moment it is drawn: its scales have the limits of all the data, and the positions along them are between 0 and 1. -/
theorem C89_inside (P : PlotEnv φ) (cmds : List Expr) (L : Layer φ) (hp : L.palette ≠ []) (s : PlotState φ)
    (hprep : plotPrepare P cmds { layer := L } = (s, none)) (hw : Without ["scale-x", "scale-y"] cmds)
    (pre post : List Expr) (e : Expr) (hc : cmds = pre ++ e :: post) (t : PlotState φ) (ht : plotDraw P pre s = (t, none))
    (n : String) (hn : nameOf e = some n.toList) (xs ys : List (DataBuffer (Option ℝ))) (sc : Scales)
    (hsh : Shows P t (argsOf e) n xs ys sc) :
    LimitsOf {v | ∃ e ∈ cmds, ShownX P L e v} sc.x.hints ∧ LimitsOf {v | ∃ e ∈ cmds, ShownY P L e v} sc.y.hints ∧
    (Automatic sc.x → ∀ b ∈ xs, ∀ ps, translateBuf P sc.x b = .ok ps → ∀ p ∈ ps, 0 ≤ p ∧ p ≤ 1) ∧
    (Automatic sc.y → ∀ b ∈ ys, ∀ ps, translateBuf P sc.y b = .ok ps → ∀ p ∈ ps, 0 ≤ p ∧ p ≤ 1) := by
  obtain ⟨-, hx, -, hy⟩ := C89_limits P cmds L hp s hprep hw
  obtain ⟨hsc, hon⟩ := C89_same_limits P cmds L hp s hprep hw pre (by rw [hc]; simp +contextual)
  rw [ht] at hsc hon
  simp only at hsc hon
  have hpt : (t.env P).palette ≠ [] := by rw [on_env hon]; exact hp
  obtain ⟨ax, ay⟩ := shows_scales hpt hsh
  have hx' : LimitsOf {v | ∃ e ∈ cmds, ShownX P L e v} sc.x.hints := by rw [scaleX_hints ax, hsc]; exact hx
  have hy' : LimitsOf {v | ∃ e ∈ cmds, ShownY P L e v} sc.y.hints := by rw [scaleY_hints ay, hsc]; exact hy
  have he : e ∈ cmds := by rw [hc]; simp
  refine ⟨hx', hy', fun ha b hb ps hps => ?_, fun ha b hb ps hps => ?_⟩
  · refine translate_inside ha hx' (fun v hv => ⟨e, he, t, n, hon, hn, .inl ⟨xs, ys, sc, hsh, ?_⟩⟩) hps
    obtain ⟨b', hb', r⟩ := hv
    simp only [List.mem_cons, List.not_mem_nil, or_false] at hb'
    subst hb'
    exact ⟨b', hb, r⟩
  · refine translate_inside ha hy' (fun v hv => ⟨e, he, t, n, hon, hn, .inl ⟨xs, ys, sc, hsh, ?_⟩⟩) hps
    obtain ⟨b', hb', r⟩ := hv
    simp only [List.mem_cons, List.not_mem_nil, or_false] at hb'
    subst hb'
    exact ⟨b', hb, r⟩

/-- The scales of a plot without scale settings. -/
theorem prepare_plain {P : PlotEnv φ} {E : ReadEnv} {cmds : List Expr} {s s' : PlotState φ}
    (he : Executed (optTable (prepareTable P E)) cmds s s') (hw : Without scaleNames cmds)
    (kx : s.scales.x.kind = .linear) (ky : s.scales.y.kind = .linear) :
    SameButHints s.scales.x s'.scales.x ∧ SameButHints s.scales.y s'.scales.y := by
  induction he with
  | nil s => exact ⟨.refl _, .refl _⟩
  | @cons name args rest s s₁ s' h hv hf hr _ ih =>
    have hn : nameOf (.list (name :: args)) = some name.getValue := nameOf_isValue hv args
    suffices h0 : SameButHints s.scales.x s₁.scales.x ∧ SameButHints s.scales.y s₁.scales.y by
      obtain ⟨h1, h2⟩ := ih (fun e he => hw e (.tail _ he)) (by rw [h0.1]; exact kx) (by rw [h0.2]; exact ky)
      exact ⟨h0.1.trans h1, h0.2.trans h2⟩
    obtain ⟨p, hpm, hpn, rfl⟩ := optTable_some hf
    have data : ∀ {κ : Type} {configure : PlotState φ → List Expr → Except Fail κ}
        {xs ys : κ → List (DataBuffer (Option ℝ))},
        withConfig configure (fun c => onPart (·.scales) (fun s v => { s with scales := v })
          (fun _ => fitAll P (xs c) (ys c)) []) args s = (s₁, none) →
        SameButHints s.scales.x s₁.scales.x ∧ SameButHints s.scales.y s₁.scales.y := by
      intro κ configure xs ys hrun
      unfold withConfig at hrun
      cases hc : configure s args with
      | error f => rw [hc] at hrun; simp at hrun
      | ok c =>
        rw [hc] at hrun
        simp only [onPart, Prod.mk.injEq] at hrun
        obtain ⟨vx, vy, e1, e2, -, -⟩ := fitAll_ok kx ky (Prod.ext rfl hrun.2 : fitAll P (xs c) (ys c) s.scales = (_, none))
        rw [← hrun.1]
        simp only [e1, e2]
        exact ⟨fold_same _ _, fold_same _ _⟩
    have set : p.1 ∈ scaleNames → SameButHints s.scales.x s₁.scales.x ∧ SameButHints s.scales.y s₁.scales.y :=
      fun hm => absurd (hn.trans (congrArg some hpn.symm)) (hw _ (.head _) _ hm)
    simp only [prepareTable, plotScaleOpts, liftOpts, scaleOpts, limitOpts, List.map_append, List.map_cons, List.map_nil,
      List.cons_append, List.nil_append, List.mem_cons, List.not_mem_nil, or_false] at hpm
    rcases hpm with rfl | rfl | rfl | rfl | rfl | rfl | rfl | rfl | rfl | rfl | rfl | rfl | rfl | rfl | rfl | rfl | rfl | rfl | rfl
    iterate 10 exact set (by dsimp only; decide)
    iterate 6 exact data hr
    · unfold polygonsAutorange withConfig at hr
      cases hc : polygonsConfigure P s args with
      | error f => simp only [hc] at hr; simp at hr
      | ok c =>
        simp only [hc, Prod.mk.injEq, and_true] at hr
        subst hr
        exact ⟨rfl, rfl⟩
    iterate 2 exact data hr

end Clip
