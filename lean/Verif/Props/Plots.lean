import Verif.Lemmas.Plots
import Verif.Props.Data
import Verif.Props.Scale
import Mathlib.Tactic.Linarith
import Mathlib.Tactic.Positivity
/-!
# Properties C42, C63, C64: plots
-/
set_option linter.unusedSimpArgs false
namespace Clip
noncomputable section
open PlotSpec DataSpec ScaleSpec

variable {M K : Type}

/-- The markers and labels of a line plot. -/
def lineDecorations (clip : Rect) (c : LinesConfig M K) (ps : List (ℝ × ℝ)) : List (PlotOp M K) :=
  (if c.markerSize > 0 then ps.map fun p => .marker c.markerShape (at_ clip p.1 p.2) c.markerSize c.markerColor
    else []) ++
  (c.labels.zip ps).map fun q => .text q.1
    ⟨(at_ clip q.2.1 q.2.2).x, (at_ clip q.2.1 q.2.2).y + c.markerSize +
      (if c.labelPadding ≠ 0 then c.labelPadding else 0.4 * c.labelFontSize)⟩ .center .bottom

/-- C42: a line plot draws, for every series, one path through the points of the series, in order, each at its
fraction of the plot area; then one marker per point (if markers are on) and the labels above the points. -/
theorem C42_lines_partial (clip : Rect) (c : LinesConfig M K) (xs ys : List ℝ) (hl : xs.length = ys.length)
    (hc : ∀ k ∈ c.groups, k ≤ xs.length) (hlab : c.labels.length ≤ xs.length) :
    linesDraw clip c xs ys = some (((pieces c.groups (xs.zip ys)).map fun s => .path (seriesPath clip s)) ++
      lineDecorations clip c (xs.zip ys)) := by
  have hz : (xs.zip ys).length = xs.length := by simp [hl]
  have h1 : ((List.range (c.groups.length + 1)).mapM fun n => (do
      let r := lineRange c.groups xs ys n
      let p ← linesPath clip xs ys r.1 r.2
      return PlotOp.path p : Option (PlotOp M K))) =
      some ((pieces c.groups (xs.zip ys)).map fun s => .path (seriesPath clip s)) := by
    rw [mapM_some_of _ (fun n => .path (seriesPath clip (((xs.zip ys).take (c.groups.getD n (xs.zip ys).length)).drop
      (if n > 0 then c.groups.getD (n - 1) 0 else 0))))]
    · rw [pieces_range, List.map_map]; rfl
    · intro n _
      have : (lineRange c.groups xs ys n).2 ≤ xs.length := by
        simp only [lineRange]
        by_cases hn : n < c.groups.length
        · simpa [hn] using hc _ (List.getElem_mem hn)
        · simp [List.getElem?_eq_none (Nat.not_lt.1 hn)]
      simp only [linesPath_eq clip xs ys hl _ _ this]
      simp [lineRange, hl]
  have h2 : ((List.range xs.length).mapM fun i => (do
        let x ← xs[i]?
        let y ← ys[i]?
        return PlotOp.marker c.markerShape ⟨clip.x + x * clip.w, clip.y + y * clip.h⟩ c.markerSize c.markerColor
          : Option (PlotOp M K))) =
      some ((xs.zip ys).map fun p => .marker c.markerShape (at_ clip p.1 p.2) c.markerSize c.markerColor) := by
    rw [mapM_some_of _ (fun i => PlotOp.marker c.markerShape
      ⟨clip.x + xs.getD i 0 * clip.w, clip.y + ys.getD i 0 * clip.h⟩ c.markerSize c.markerColor)]
    · congr 1
      apply List.ext_getElem
      · simp [hl]
      · intro i h1 h2
        simp at h1 h2
        simp [h1, h2, at_]
    · intro i hi
      simp at hi
      have h4 : i < ys.length := by omega
      simp [hi, h4]
  have h3 : ((List.range c.labels.length).mapM fun i => (do
        let t ← c.labels[i]?
        let x ← xs[i]?
        let y ← ys[i]?
        let pad := if c.labelPadding ≠ 0 then c.labelPadding else 0.4 * c.labelFontSize
        return PlotOp.text t ⟨clip.x + x * clip.w, clip.y + y * clip.h + c.markerSize + pad⟩ .center .bottom
          : Option (PlotOp M K))) =
      some ((c.labels.zip (xs.zip ys)).map fun q => .text q.1
        ⟨(at_ clip q.2.1 q.2.2).x, (at_ clip q.2.1 q.2.2).y + c.markerSize +
          (if c.labelPadding ≠ 0 then c.labelPadding else 0.4 * c.labelFontSize)⟩ .center .bottom) := by
    rw [mapM_some_of _ (fun i => PlotOp.text (c.labels.getD i []) ⟨clip.x + xs.getD i 0 * clip.w,
      clip.y + ys.getD i 0 * clip.h + c.markerSize +
          (if c.labelPadding ≠ 0 then c.labelPadding else 0.4 * c.labelFontSize)⟩ .center .bottom)]
    · congr 1
      apply List.ext_getElem
      · simp [← hl]; omega
      · intro i h1 h2
        simp at h1
        have h5 : i < xs.length := by omega
        have h6 : i < ys.length := by omega
        simp [h1, h5, h6, at_]
    · intro i hi
      simp at hi
      have h5 : i < xs.length := by omega
      have h6 : i < ys.length := by omega
      simp [hi, h5, h6]
  unfold linesDraw
  rw [h1, h3]
  by_cases hm : c.markerSize > 0
  · simp only [hm, if_true, h2, lineDecorations]
    simp
  · simp only [hm, if_false, lineDecorations]
    simp

/-- C42: the series of a line plot are disjoint parts that make up all the data: every data point appears exactly
once. -/
theorem C42_every_point_once {α : Type} (cuts : List Nat) (ps : List α) (hs : cuts.Pairwise (· ≤ ·))
    (hc : ∀ k ∈ cuts, k ≤ ps.length) : (pieces cuts ps).flatten = ps := by
  rw [pieces, pieces_flatten ps cuts 0]
  · simp
  · simp [hs]
  · simpa using hc

example : pieces [2, 2, 3] [1, 2, 3, 4] = [[1, 2], [], [3], [4]] := by decide

/-- C42: a point whose translated coordinates are between 0 and 1 is drawn inside the plot area. -/
theorem C42_inside (clip : Rect) (hw : 0 ≤ clip.w) (hh : 0 ≤ clip.h) (x y : ℝ) (hx : 0 ≤ x ∧ x ≤ 1)
    (hy : 0 ≤ y ∧ y ≤ 1) : clip.Has (at_ clip x y) := by
  refine ⟨?_, ?_, ?_, ?_⟩ <;> simp only [at_]
  · nlinarith [mul_nonneg hx.1 hw]
  · nlinarith [mul_nonneg (sub_nonneg.2 hx.2) hw]
  · nlinarith [mul_nonneg hy.1 hh]
  · nlinarith [mul_nonneg (sub_nonneg.2 hy.2) hh]

example : (⟨10, 20, 100, 50⟩ : Rect).Has (at_ ⟨10, 20, 100, 50⟩ 0.5 1) :=
  C42_inside _ (by norm_num) (by norm_num) _ _ (by norm_num) (by norm_num)

/-- C42 (violated by the code): with more labels than points the labels loop reads outside the data. -/
theorem C42_surplus_labels_undefined (clip : Rect) (c : LinesConfig M K) (xs ys : List ℝ)
    (h : xs.length < c.labels.length) : linesDraw clip c xs ys = none := by
  have : ((List.range c.labels.length).mapM fun i => (do
        let t ← c.labels[i]?
        let x ← xs[i]?
        let y ← ys[i]?
        let pad := if c.labelPadding ≠ 0 then c.labelPadding else 0.4 * c.labelFontSize
        return PlotOp.text t ⟨clip.x + x * clip.w, clip.y + y * clip.h + c.markerSize + pad⟩ .center .bottom
          : Option (PlotOp M K))) = none := by
    apply mapM_none_of _ _ xs.length (by simpa using h)
    simp [h]
  unfold linesDraw
  rw [this]
  cases (List.range (c.groups.length + 1)).mapM fun n => (do
    let r := lineRange c.groups xs ys n
    let p ← linesPath clip xs ys r.1 r.2
    return PlotOp.path p : Option (PlotOp M K)) with
  | none => rfl
  | some ls =>
    split
    · cases (List.range xs.length).mapM fun i => (do
        let x ← xs[i]?
        let y ← ys[i]?
        return PlotOp.marker c.markerShape ⟨clip.x + x * clip.w, clip.y + y * clip.h⟩ c.markerSize c.markerColor
          : Option (PlotOp M K)) <;> rfl
    · rfl

example : linesDraw (M := Unit) (K := Unit) ⟨0, 0, 1, 1⟩
    ⟨[], 0, (), (), [['a'], ['b']], 0, 1⟩ [1] [1] = none := C42_surplus_labels_undefined _ _ _ _ (by decide)

/-! ## C64: which data is accepted -/

theorem holds_cons_firstNonNumber (b : DataBuffer (Option ℝ)) : ∀ (idx : List (Bool × Nat)) (vs : List (Option ℝ ⊕ Str)),
    idx.length = vs.length →
    (∀ i (hi : i < vs.length) (hi' : i < idx.length), match vs[i] with
      | .inl v => idx[i].1 = true ∧ b.numeric[idx[i].2]? = some v
      | .inr s => idx[i].1 = false ∧ b.text[idx[i].2]? = some s) →
    firstNonNumber b.text idx = some ((vs.filterMap fun v => v.getRight?).find? fun t => !isNumber t) := by
  intro idx
  induction idx with
  | nil =>
    intro vs hl _
    have : vs = [] := by cases vs <;> simp_all
    subst this
    rfl
  | cons p idx ih =>
    intro vs hl h
    cases vs with
    | nil => simp at hl
    | cons v vs =>
      obtain ⟨isNum, pos⟩ := p
      have h0 := h 0 (by simp) (by simp)
      have ih' := ih vs (by simpa using hl) (fun i hi hi' => by
        have := h (i + 1) (by simpa using hi) (by simpa using hi')
        simpa using this)
      simp only [List.getElem_cons_zero] at h0
      cases v with
      | inl v =>
        simp only at h0
        simp [firstNonNumber, h0.1, ih']
      | inr t =>
        simp only at h0
        simp only [firstNonNumber, h0.1, h0.2, Bool.false_eq_true, if_false, ih', List.filterMap_cons,
          Sum.getRight?_inr, List.find?_cons]
        cases isNumber t <;> simp

theorem translatevBuf_numeric (a : Arith) (toS : Option ℝ → Str) (parse : Str → Option ℝ) (s : Scale)
    (hk : s.kind ≠ .categorical) (b : DataBuffer (Option ℝ)) (vs : List (Option ℝ ⊕ Str)) (h : Holds b vs) :
    translatevBuf a toS parse s b =
      match (vs.filterMap fun v => v.getRight?).find? fun t => !isNumber t with
      | some t => .error (.notANumber t)
      | none => .ok (vs.map fun | .inl v => translateValue a s v | .inr t => translateValue a s (parse t)) := by
  have h1 := holds_cons_firstNonNumber b b.index vs h.1 fun i hi hi' => by
    have := h.2 i hi hi'
    revert this
    cases vs[i] <;> exact id
  have h2 := holds_numbers h parse
  unfold translatevBuf
  cases hkk : s.kind with
  | categorical => exact absurd hkk hk
  | linear | logarithmic =>
    simp only [h1, h2]
    cases (vs.filterMap fun v => v.getRight?).find? fun t => !isNumber t with
    | some t => rfl
    | none =>
      simp only [List.map_map, Outcome.ok.injEq]
      apply List.map_congr_left
      intro v _
      cases v <;> rfl

/-- C64: on a linear or logarithmic scale a series is accepted exactly if every text in it passes for a number;
then there is one position per value, in order, and it is the position of the value.  Otherwise the first text that
is no number is reported. -/
theorem C64_numeric (a : Arith) (toS : Option ℝ → Str) (parse : Str → Option ℝ) (s : Scale)
    (hk : s.kind ≠ .categorical) (vs : List (Option ℝ ⊕ Str)) :
    ((∀ t, .inr t ∈ vs → isNumber t = true) →
      translatevBuf a toS parse s (vs.foldl addValue {}) =
        .ok (vs.map fun | .inl v => translateValue a s v | .inr t => translateValue a s (parse t))) ∧
    ((∃ t, .inr t ∈ vs ∧ isNumber t = false) →
      ∃ t, .inr t ∈ vs ∧ isNumber t = false ∧
        translatevBuf a toS parse s (vs.foldl addValue {}) = .error (.notANumber t)) := by
  have h : Holds (vs.foldl addValue ({} : DataBuffer (Option ℝ))) vs := by
    simpa using holds_adds vs (holds_empty (ν := Option ℝ))
  have hm : ∀ t, t ∈ (vs.filterMap fun v => v.getRight?) ↔ .inr t ∈ vs := by
    intro t
    simp only [List.mem_filterMap]
    constructor
    · rintro ⟨v, hv, e⟩
      cases v with
      | inl v => simp at e
      | inr u =>
        simp only [Sum.getRight?_inr, Option.some.injEq] at e
        rwa [← e]
    · intro ht
      exact ⟨_, ht, rfl⟩
  rw [translatevBuf_numeric a toS parse s hk _ vs h]
  constructor
  · intro hall
    have : (vs.filterMap fun v => v.getRight?).find? (fun t => !isNumber t) = none := by
      rw [List.find?_eq_none]
      intro t ht
      simp [hall t ((hm t).1 ht)]
    rw [this]
  · rintro ⟨t, ht, hn⟩
    cases hf : (vs.filterMap fun v => v.getRight?).find? (fun t => !isNumber t) with
    | none =>
      rw [List.find?_eq_none] at hf
      simpa [hn] using hf t ((hm t).2 ht)
    | some u =>
      refine ⟨u, (hm u).1 (List.mem_of_find?_eq_some hf), ?_, rfl⟩
      simpa using List.find?_some hf

example : ∃ t, (.inr t : Option ℝ ⊕ Str) ∈ [.inl (some 1), .inr ['a']] ∧ isNumber t = false :=
  ⟨['a'], by simp, by decide⟩

example : ∀ t, (.inr t : Option ℝ ⊕ Str) ∈ [.inl (some 1), .inr ['-', '1', '.', '5']] → isNumber t = true := by
  intro t ht
  have : t = ['-', '1', '.', '5'] := by simpa using ht
  subst this
  decide

/-- C64: on a categorical scale a series is accepted exactly if every value, as text, is one of the categories; then
the i-th position is the position of its category.  Otherwise the first other value is reported. -/
theorem C64_categorical (a : Arith) (toS : Option ℝ → Str) (parse : Str → Option ℝ) (s : Scale)
    (hk : s.kind = .categorical) (hc : s.categoriesMap = buildCategories s.categories 0 fun _ => none)
    (vs : List (Option ℝ ⊕ Str)) (ts : List Str)
    (hts : ts = vs.map fun | .inl v => toS v | .inr t => t) :
    ((∀ t ∈ ts, t ∈ s.categories) →
      ∃ is : List Nat, translatevBuf a toS parse s (vs.foldl addValue {}) =
          .ok (is.map fun i : ℕ => scaleTranslate a s (i : ℝ)) ∧
        is.map (s.categories[·]?) = ts.map some) ∧
    (∀ t us ws, ts = us ++ t :: ws → (∀ u ∈ us, u ∈ s.categories) → t ∉ s.categories →
      translatevBuf a toS parse s (vs.foldl addValue {}) = .error (.notACategory t)) := by
  have h : Holds (vs.foldl addValue ({} : DataBuffer (Option ℝ))) vs := by
    simpa using holds_adds vs (holds_empty (ν := Option ℝ))
  have htx : databufToText toS (vs.foldl addValue ({} : DataBuffer (Option ℝ))) = some ts := by
    rw [hts]
    refine (holds_text h toS).trans ?_
    congr 2
    funext x
    cases x <;> rfl
  have key : translatevBuf a toS parse s (vs.foldl addValue {}) =
      match mapCategories s ts with
      | .ok is => .ok (is.map fun i : ℕ => scaleTranslate a s (i : ℝ))
      | .error e => .error e
      | .thrown => .thrown
      | .undefined => .undefined := by
    unfold translatevBuf
    simp only [hk, htx]
    cases mapCategories s ts <;> rfl
  have hok : ∀ us : List Str, (∀ u ∈ us, u ∈ s.categories) →
      ∃ is, mapCategories s us = .ok is ∧ is.map (s.categories[·]?) = us.map some := by
    intro us
    induction us with
    | nil => intro _; exact ⟨[], rfl, rfl⟩
    | cons u us ih =>
      intro hu
      obtain ⟨is, e1, e2⟩ := ih fun v hv => hu v (by simp [hv])
      cases hi : buildCategories s.categories 0 (fun _ => none) u with
      | none => exact absurd (hu u (by simp)) ((C22_category_index s.categories u).2.1 hi)
      | some i =>
        have := ((C22_category_index s.categories u).1 i).1 hi
        exact ⟨i :: is, by simp [mapCategories, hc, hi, e1], by simp [this.1, e2]⟩
  constructor
  · intro hall
    obtain ⟨is, e1, e2⟩ := hok ts hall
    exact ⟨is, by rw [key, e1], e2⟩
  · intro t us ws hsplit hus ht
    have herr : mapCategories s ts = .error (.notACategory t) := by
      rw [hsplit]
      clear hsplit
      induction us with
      | nil =>
        have := (C22_category_index s.categories t).2.2 ht
        simp [mapCategories, hc, this]
      | cons u us ih =>
        have e := ih fun v hv => hus v (by simp [hv])
        cases hi : buildCategories s.categories 0 (fun _ => none) u with
        | none => exact absurd (hus u (by simp)) ((C22_category_index s.categories u).2.1 hi)
        | some i => simp [mapCategories, hc, hi, e]
    rw [key, herr]

example : ∃ s : Scale, s.kind = .categorical ∧ s.categories = [['a'], ['b']] ∧
    s.categoriesMap = buildCategories s.categories 0 fun _ => none :=
  ⟨{ kind := .categorical, categories := [['a'], ['b']],
     categoriesMap := buildCategories [['a'], ['b']] 0 fun _ => none }, rfl, rfl, rfl⟩

/-- C42: end to end for GeoJSON polylines on scales that cover the data: after loading, the line plot draws one
path per polyline (empty ones at the beginning excepted), through the positions of its vertices. -/
theorem C42_geojson (readFile : Str → Option Str) (geojson : LineReader (Option ℝ)) (path format : Str)
    (ls : List (List (ℝ × ℝ))) (hp : path ≠ []) (hf : detectFormat path format = "geojson".toList)
    (hg : geojson path = (ls.map (·.map fun p => (some p.1, some p.2)), .ok ())) (hne : ls.flatten ≠ [])
    (a : Arith) (toS : Option ℝ → Str) (parse : Str → Option ℝ) (sx sy : Scale) (fx fy : ℝ → ℝ)
    (hkx : sx.kind ≠ .categorical) (hky : sy.kind ≠ .categorical)
    (hsx : ∀ p ∈ ls.flatten, scaleTranslate a sx p.1 = some (fx p.1))
    (hsy : ∀ p ∈ ls.flatten, scaleTranslate a sy p.2 = some (fy p.2))
    (clip : Rect) (c : LinesConfig M K) (hm : c.markerSize ≤ 0) (hlab : c.labels = []) :
    ∃ x y cuts xs ys,
      dataLoadPolylines2 readFile geojson path format none none {} {} [] = ((x, y, cuts), .ok ()) ∧
      linesCheck x y = .ok () ∧
      translatevBuf a toS parse sx x = .ok (xs.map some) ∧ translatevBuf a toS parse sy y = .ok (ys.map some) ∧
      linesDraw clip { c with groups := cuts } xs ys =
        some ((ls.dropWhile List.isEmpty).map fun l => .path (polyline (l.map fun p => at_ clip (fx p.1) (fy p.2)))) := by
  set ls' : List (List (Option ℝ × Option ℝ)) := ls.map (·.map fun p => (some p.1, some p.2)) with hls'
  have hflat : ls'.flatten = ls.flatten.map fun p => (some p.1, some p.2) := by
    rw [hls', List.map_flatten]
  have hne' : ls'.flatten ≠ [] := by rw [hflat]; simpa using hne
  have hpe : path.isEmpty = false := by cases path <;> simp_all
  have h := lines_inv ls' _ _ (linesInv_empty (ν := Option ℝ))
  simp only [List.nil_append] at h
  set st := ls'.foldl onLine (({}, {}, []) : DataBuffer (Option ℝ) × DataBuffer (Option ℝ) × List Nat) with hst
  refine ⟨st.1, st.2.1, st.2.2, ls.flatten.map (fun p => fx p.1), ls.flatten.map (fun p => fy p.2), ?_, ?_, ?_, ?_, ?_⟩
  · unfold dataLoadPolylines2
    simp only [loadInlineRef, hpe, hf, hg]
    simp [databufAddTexts, hst]
  · have e1 : databufLen st.1 = ls'.flatten.length := by rw [databufLen, h.x.1, List.length_map]
    have e2 : databufLen st.2.1 = ls'.flatten.length := by rw [databufLen, h.y.1, List.length_map]
    have : ls'.flatten.length ≠ 0 := by rwa [Ne, List.length_eq_zero_iff]
    simp only [linesCheck, e1, e2]
    simp only [ne_eq, not_true_eq_false, if_false, or_self, this]
  · rw [translatevBuf_numeric a toS parse sx hkx _ _ h.x]
    have : ((ls'.flatten.map fun p => (Sum.inl p.1 : Option ℝ ⊕ Str)).filterMap fun v => v.getRight?) = [] := by
      simp [List.filterMap_map, Function.comp_def]
    rw [this]
    simp only [List.find?_nil, hflat, List.map_map, Outcome.ok.injEq]
    apply List.map_congr_left
    intro p hp
    simpa [translateValue] using hsx p hp
  · rw [translatevBuf_numeric a toS parse sy hky _ _ h.y]
    have : ((ls'.flatten.map fun p => (Sum.inl p.2 : Option ℝ ⊕ Str)).filterMap fun v => v.getRight?) = [] := by
      simp [List.filterMap_map, Function.comp_def]
    rw [this]
    simp only [List.find?_nil, hflat, List.map_map, Outcome.ok.injEq]
    apply List.map_congr_left
    intro p hp
    simpa [translateValue] using hsy p hp
  · rw [C42_lines_partial clip _ _ _ (by rw [List.length_map, List.length_map]) (by
        intro k hk
        have := h.cuts k hk
        rw [hflat, List.length_map] at this
        rwa [List.length_map]) (by simp [hlab])]
    have hp := h.pieces hne'
    have e : pieces st.2.2 ((ls.flatten.map (fun p => fx p.1)).zip (ls.flatten.map (fun p => fy p.2))) =
        (ls.dropWhile List.isEmpty).map (·.map fun p => (fx p.1, fy p.2)) := by
      have e1 : ∀ {α β : Type} (f : α → β) (cuts : List Nat) (l : List α),
          pieces cuts (l.map f) = (pieces cuts l).map (·.map f) := by
        intro α β f cuts l
        rw [pieces_range, pieces_range, List.map_map]
        apply List.map_congr_left
        intro n _
        simp [List.map_drop, List.map_take]
      have e2 : (ls.flatten.map (fun p => fx p.1)).zip (ls.flatten.map (fun p => fy p.2)) =
          ls.flatten.map fun p => (fx p.1, fy p.2) := by
        rw [List.zip_map', ]
      have e3 : (pieces st.2.2 ls.flatten).map (·.map fun p => ((some p.1, some p.2) : Option ℝ × Option ℝ)) =
          (ls.dropWhile List.isEmpty).map (·.map fun p => (some p.1, some p.2)) := by
        rw [← e1, ← hflat, hp, hls', List.dropWhile_map]
        congr 2
        funext l
        cases l <;> rfl
      have inj : Function.Injective fun l : List (ℝ × ℝ) =>
          l.map fun p => ((some p.1, some p.2) : Option ℝ × Option ℝ) := by
        apply List.map_injective_iff.2
        rintro ⟨a, b⟩ ⟨c, d⟩ hcd
        simpa using hcd
      rw [e2, e1, List.map_injective_iff.2 inj e3]
    rw [e]
    have hm' : ¬ c.markerSize > 0 := by linarith
    simp [lineDecorations, hm', hlab, seriesPath, Function.comp_def]

/-- Every hypothesis of `C42_geojson` is met by a file with two polylines and the scales of an empty plot. -/
example : ∃ (geojson : LineReader (Option ℝ)) (ls : List (List (ℝ × ℝ))) (sx : Scale),
    geojson "a.geojson".toList = (ls.map (·.map fun p => (some p.1, some p.2)), .ok ()) ∧ ls.flatten ≠ [] ∧
    sx.kind ≠ .categorical ∧ (∀ p ∈ ls.flatten, scaleTranslate .exact sx p.1 = some (id p.1)) ∧ ls.length = 2 :=
  ⟨fun _ => ([[(some 0, some 1), (some 1, some 0)], [(some 0.5, some 0.5)]], .ok ()),
    [[(0, 1), (1, 0)], [(0.5, 0.5)]], {}, rfl, by simp, by simp,
    by intro p _; simp [scaleTranslate, translateLinear, scaleMin, scaleMax, Arith.exact], rfl⟩

end
end Clip
