import Verif.Props.ElementPictures
/-!
# Property C94: the pictures of plot elements, continued
-/
set_option linter.unusedSimpArgs false
set_option linter.unusedVariables false
namespace Clip
noncomputable section
open PlotSpec DataSpec Pictures AxisSpec Elements

variable {φ : Type}

/-! ## Bars -/

section
variable {M K : Type}

theorem bars_vertical_lows (clip : Rect) (c : BarsConfig) (xs ys os : List ℝ) (zero : ℝ) (hl : xs.length = ys.length)
    (ho : os = [] ∨ os.length = ys.length) :
    barsVertical (M := M) (K := K) clip c xs ys os zero = some ((xs.zip (ys.zip (if os = [] then
        List.replicate xs.length (clamp01 zero) else os))).mapIdx fun i (p : ℝ × ℝ × ℝ) => PlotOp.path (ring (vbar
      ((at_ clip p.1 0).x + cycleOr c.offset c.offsets i) (cycleOr c.size c.sizes i)
      (at_ clip 0 p.2.2).y (at_ clip 0 p.2.1).y))) := by
  by_cases h : os = []
  · subst h
    rw [C63_bars_vertical clip c xs ys zero hl]
    congr 1
    apply List.ext_getElem
    · simp [hl]
    · intro i h1 h2
      simp [at_]
  · rw [C63_bars_vertical_offsets clip c xs ys os zero hl (ho.resolve_left h) h]
    simp [h, at_]

theorem bars_horizontal_lows (clip : Rect) (c : BarsConfig) (xs ys os : List ℝ) (zero : ℝ) (hl : xs.length = ys.length)
    (ho : os = [] ∨ os.length = xs.length) :
    barsHorizontal (M := M) (K := K) clip c xs ys os zero = some ((ys.zip (xs.zip (if os = [] then
        List.replicate xs.length (clamp01 zero) else os))).mapIdx fun i (p : ℝ × ℝ × ℝ) => PlotOp.path (ring ((vbar
      ((at_ clip 0 p.1).y - cycleOr c.offset c.offsets i) (cycleOr c.size c.sizes i)
      (at_ clip p.2.2 0).x (at_ clip p.2.1 0).x).map fun q => ⟨q.y, q.x⟩))) := by
  by_cases h : os = []
  · subst h
    rw [C63_bars_horizontal clip c xs ys zero hl]
    congr 1
    apply List.ext_getElem
    · simp [hl]
    · intro i h1 h2
      simp [at_, hbar]
  · have ho' := ho.resolve_left h
    unfold barsHorizontal
    have he : os.isEmpty = false := by cases os <;> simp_all
    simp only [he, Bool.false_eq_true, if_false, h]
    rw [mapM_some_of _ (fun i => (PlotOp.path (ring ((vbar
        ((at_ clip 0 (ys.getD i 0)).y - cycleOr c.offset c.offsets i) (cycleOr c.size c.sizes i)
        (at_ clip (os.getD i 0) 0).x (at_ clip (xs.getD i 0) 0).x).map fun q => ⟨q.y, q.x⟩)) : PlotOp M K))]
    · congr 1
      apply List.ext_getElem
      · simp [← hl, ho']
      · intro i h1 h2
        simp at h1 h2
        simp [h1, h2]
    · intro i hi
      simp at hi
      have h3 : i < ys.length := by omega
      have h4 : i < os.length := by omega
      simp [hi, h3, h4, ring, polyline, vbar, at_]
      ring_nf
      simp

theorem bar_labels_surplus (vertical : Bool) (clip : Rect) (c : BarsConfig) (xs ys : List ℝ) (h : ¬ c.labels.length ≤ xs.length) :
    barsLabels (M := M) (K := K) vertical clip c xs ys = none := by
  unfold barsLabels
  exact labels_none c.labels xs ys h fun i t x y => if vertical then
      PlotOp.text t ⟨clip.x + cycleOr c.offset c.offsets i + x * clip.w, clip.y + y * clip.h + c.labelPadding⟩ .center .bottom
    else PlotOp.text t ⟨clip.x + x * clip.w + c.labelPadding, clip.y + -cycleOr c.offset c.offsets i + y * clip.h⟩ .left .center
end

theorem measureOr_orElse (m : Measure) (d : ℝ) : (measureOr m ⟨.unit, d⟩).value = orElse m d := by
  unfold measureOr orElse
  by_cases h : m.value = 0 <;> simp [h]

theorem except_bind {α β : Type} {a : Except Fail α} {f : α → Except Fail β} {r : β} :
    (a >>= f) = .ok r ↔ ∃ x, a = .ok x ∧ f x = .ok r := by
  cases a <;> simp [Bind.bind, Except.bind]

theorem bars_vertical_iff {P : PlotEnv φ} {c : BarsConf φ} {s s' : PlotState φ} (hd : c.direction = .vertical) :
    barsRender P c s = (s', none) ↔ ∃ us vs os z, Positions P c.scales.x c.x us ∧ Positions P c.scales.y c.y vs ∧
      Positions P c.scales.y c.yoffset os ∧ translateZero c.scales.y = .ok z ∧
      drawOn s (renderOps? P ⟨c.stroke, c.fill, c.labelFonts, c.labelFontSize, c.labelColor⟩ (do
        let bs ← barsVertical s.clip (c.config s) us vs os z
        let ls ← barsLabels true s.clip (c.config s) us vs
        return bs ++ ls) s.layer) = (s', none) := by
  have h : ∀ us vs os z, barsData P c = .ok ((us, vs), (os, z)) ↔ Positions P c.scales.x c.x us ∧
      Positions P c.scales.y c.y vs ∧ Positions P c.scales.y c.yoffset os ∧ translateZero c.scales.y = .ok z := by
    intro us vs os z
    unfold barsData
    simp only [hd, except_bind, positions_iff, Pure.pure, Except.pure, Except.ok.injEq, Prod.mk.injEq]
    constructor
    · rintro ⟨_, h1, _, h2, _, h3, _, h4, ⟨rfl, rfl⟩, rfl, rfl⟩; exact ⟨h1, h2, h3, h4⟩
    · rintro ⟨h1, h2, h3, h4⟩; exact ⟨_, h1, _, h2, _, h3, _, h4, ⟨rfl, rfl⟩, rfl, rfl⟩
  unfold barsRender
  cases hb : barsData P c with
  | error f =>
    simp only [hb, reduceCtorEq, false_iff] at h
    simp only [Prod.mk.injEq, reduceCtorEq, and_false, false_iff]
    rintro ⟨us, vs, os, z, h1, h2, h3, h4, -⟩
    exact h us vs os z ⟨h1, h2, h3, h4⟩
  | ok r =>
    obtain ⟨⟨xs, ys⟩, os, z⟩ := r
    simp only [hb, Except.ok.injEq, Prod.mk.injEq, hd] at h ⊢
    constructor
    · intro hh
      obtain ⟨h1, h2, h3, h4⟩ := (h xs ys os z).1 ⟨⟨rfl, rfl⟩, rfl, rfl⟩
      exact ⟨xs, ys, os, z, h1, h2, h3, h4, hh⟩
    · rintro ⟨us, vs, os', z', h1, h2, h3, h4, hh⟩
      obtain ⟨⟨rfl, rfl⟩, rfl, rfl⟩ := (h us vs os' z').2 ⟨h1, h2, h3, h4⟩
      exact hh

theorem bars_horizontal_iff {P : PlotEnv φ} {c : BarsConf φ} {s s' : PlotState φ} (hd : c.direction = .horizontal) :
    barsRender P c s = (s', none) ↔ ∃ us vs os z, Positions P c.scales.x c.x us ∧ Positions P c.scales.y c.y vs ∧
      Positions P c.scales.x c.xoffset os ∧ translateZero c.scales.x = .ok z ∧
      drawOn s (renderOps? P ⟨c.stroke, c.fill, c.labelFonts, c.labelFontSize, c.labelColor⟩ (do
        let bs ← barsHorizontal s.clip (c.config s) us vs os z
        let ls ← barsLabels false s.clip (c.config s) us vs
        return bs ++ ls) s.layer) = (s', none) := by
  have h : ∀ us vs os z, barsData P c = .ok ((us, vs), (os, z)) ↔ Positions P c.scales.x c.x us ∧
      Positions P c.scales.y c.y vs ∧ Positions P c.scales.x c.xoffset os ∧ translateZero c.scales.x = .ok z := by
    intro us vs os z
    unfold barsData
    simp only [hd, except_bind, positions_iff, Pure.pure, Except.pure, Except.ok.injEq, Prod.mk.injEq]
    constructor
    · rintro ⟨_, h1, _, h2, _, h3, _, h4, ⟨rfl, rfl⟩, rfl, rfl⟩; exact ⟨h1, h3, h2, h4⟩
    · rintro ⟨h1, h2, h3, h4⟩; exact ⟨_, h1, _, h3, _, h2, _, h4, ⟨rfl, rfl⟩, rfl, rfl⟩
  unfold barsRender
  cases hb : barsData P c with
  | error f =>
    simp only [hb, reduceCtorEq, false_iff] at h
    simp only [Prod.mk.injEq, reduceCtorEq, and_false, false_iff]
    rintro ⟨us, vs, os, z, h1, h2, h3, h4, -⟩
    exact h us vs os z ⟨h1, h2, h3, h4⟩
  | ok r =>
    obtain ⟨⟨xs, ys⟩, os, z⟩ := r
    simp only [hb, Except.ok.injEq, Prod.mk.injEq, hd] at h ⊢
    constructor
    · intro hh
      obtain ⟨h1, h2, h3, h4⟩ := (h xs ys os z).1 ⟨⟨rfl, rfl⟩, rfl, rfl⟩
      exact ⟨xs, ys, os, z, h1, h2, h3, h4, hh⟩
    · rintro ⟨us, vs, os', z', h1, h2, h3, h4, hh⟩
      obtain ⟨⟨rfl, rfl⟩, rfl, rfl⟩ := (h us vs os' z').2 ⟨h1, h2, h3, h4⟩
      exact hh

theorem config_width (s : PlotState φ) (c : BarsConf φ) : (c.config s).size = lengthOr c.size (10 / 72 * s.layer.size.dpi) := by
  unfold BarsConf.config lengthOr PlotState.pt unitFromPt
  simp

theorem columnsPicture_eq (T : TextEnv φ) (s : PlotState φ) (c : BarsConf φ) (us vs lows : List ℝ) :
    ColumnsPicture T s c us vs lows = InOrder ((((us.zip (vs.zip lows)).mapIdx fun i (p : ℝ × ℝ × ℝ) => PlotOp.path (ring (vbar
        ((at_ s.clip p.1 0).x + cycleOr (c.config s).offset (c.config s).offsets i) (cycleOr (c.config s).size (c.config s).sizes i)
        (at_ s.clip 0 p.2.2).y (at_ s.clip 0 p.2.1).y))) ++
      (((c.config s).labels.zip (us.zip vs)).mapIdx fun i (q : Str × ℝ × ℝ) =>
        if true then PlotOp.text q.1 ⟨(at_ s.clip q.2.1 q.2.2).x + cycleOr (c.config s).offset (c.config s).offsets i,
          (at_ s.clip q.2.1 q.2.2).y + (c.config s).labelPadding⟩ .center .bottom
        else PlotOp.text q.1 ⟨(at_ s.clip q.2.1 q.2.2).x + (c.config s).labelPadding,
          (at_ s.clip q.2.1 q.2.2).y - cycleOr (c.config s).offset (c.config s).offsets i⟩ .left .center)).map
      (OpPicture T ⟨c.stroke, c.fill, c.labelFonts, c.labelFontSize, c.labelColor⟩ s.layer.fonts s.layer.size.dpi)) := by
  unfold ColumnsPicture
  simp only [List.map_append, mapIdx_map, OpPicture, nth_eq, up, right, config_width, if_true]
  simp only [BarsConf.config, measureOr_orElse, unitFromEm, mul_comm]

theorem rowsPicture_eq (T : TextEnv φ) (s : PlotState φ) (c : BarsConf φ) (us vs lows : List ℝ) :
    RowsPicture T s c us vs lows = InOrder ((((vs.zip (us.zip lows)).mapIdx fun i (p : ℝ × ℝ × ℝ) => PlotOp.path (ring ((vbar
        ((at_ s.clip 0 p.1).y - cycleOr (c.config s).offset (c.config s).offsets i) (cycleOr (c.config s).size (c.config s).sizes i)
        (at_ s.clip p.2.2 0).x (at_ s.clip p.2.1 0).x).map fun q : Vec2 => ⟨q.y, q.x⟩))) ++
      (((c.config s).labels.zip (us.zip vs)).mapIdx fun i (q : Str × ℝ × ℝ) =>
        if false then PlotOp.text q.1 ⟨(at_ s.clip q.2.1 q.2.2).x + cycleOr (c.config s).offset (c.config s).offsets i,
          (at_ s.clip q.2.1 q.2.2).y + (c.config s).labelPadding⟩ .center .bottom
        else PlotOp.text q.1 ⟨(at_ s.clip q.2.1 q.2.2).x + (c.config s).labelPadding,
          (at_ s.clip q.2.1 q.2.2).y - cycleOr (c.config s).offset (c.config s).offsets i⟩ .left .center)).map
      (OpPicture T ⟨c.stroke, c.fill, c.labelFonts, c.labelFontSize, c.labelColor⟩ s.layer.fonts s.layer.size.dpi)) := by
  unfold RowsPicture
  simp only [List.map_append, mapIdx_map, OpPicture, nth_eq, up, right, config_width, Bool.false_eq_true, if_false]
  simp only [BarsConf.config, measureOr_orElse, unitFromEm, mul_comm, sub_eq_add_neg]

/-- C94: the bars of a plot. -/
theorem C94_bars (P : PlotEnv φ) (hT : LevelsOfChars P.text) (s s' : PlotState φ) (hp : s.layer.palette ≠ [])
    (args : List Expr) : barsCmd P args s = (s', none) ↔ ∃ c us vs lows shapes, barsConfigure P s args = .ok c ∧
      Positions P c.scales.x c.x us ∧ Positions P c.scales.y c.y vs ∧ us.length = vs.length ∧ c.labels.length ≤ us.length ∧
      ((c.direction = .vertical ∧ Lows P c.scales.y c.yoffset us.length lows ∧ ColumnsPicture P.text s c us vs lows shapes) ∨
       (c.direction = .horizontal ∧ Lows P c.scales.x c.xoffset us.length lows ∧ RowsPicture P.text s c us vs lows shapes)) ∧
      s' = { s with layer := draw s.layer shapes } := by
  have hcfg : ∀ c, barsConfigure P s args = .ok c → Options.RangesFit c.x c.xoffset c.y c.yoffset := by
    intro c hc
    obtain ⟨o, hm, h1, rfl⟩ := configured_ok (C90_bars P s hp args) hc
    exact h1
  have hl0 : ∀ {sc : Scale} {b : DataBuffer (Option ℝ)} {os : List ℝ} {n : Nat}, Positions P sc b os →
      (b.index.length = 0 ∨ b.index.length = n) → os = [] ∨ os.length = n := by
    intro sc b os n h1 h2
    have := positions_length h1
    unfold databufLen at this
    rcases h2 with h2 | h2
    · left; exact List.length_eq_zero_iff.1 (this.trans h2)
    · right; exact this.trans h2
  unfold barsCmd
  rw [withConfig_iff]
  constructor
  · rintro ⟨c, hc, h⟩
    obtain ⟨hlen, hx0, hy0⟩ := hcfg c hc
    cases hd : c.direction with
    | vertical =>
      rw [bars_vertical_iff hd] at h
      obtain ⟨us, vs, os, z, hx, hy, ho, hz, h⟩ := h
      have hl : us.length = vs.length := by rw [positions_length hx, positions_length hy]; exact hlen
      have ho' : os = [] ∨ os.length = vs.length := by
        rw [positions_length hy]; exact hl0 ho hy0
      rw [bars_vertical_lows _ _ _ _ _ _ hl ho'] at h
      by_cases hlab : c.labels.length ≤ us.length
      · rw [C63_bar_labels_partial true _ _ us vs hl (by exact hlab)] at h
        obtain ⟨shapes, h1, h2⟩ := (renderOps?_some hT).1 h
        refine ⟨c, us, vs, _, shapes, hc, hx, hy, hl, hlab, Or.inl ⟨hd, ⟨os, _, ho,
          (baseLine_iff P _ _).2 ⟨z, hz, rfl⟩, rfl⟩, ?_⟩, h2⟩
        rw [columnsPicture_eq]; exact h1
      · rw [bar_labels_surplus true _ _ _ _ (by exact hlab)] at h
        exact absurd h renderOps?_none
    | horizontal =>
      rw [bars_horizontal_iff hd] at h
      obtain ⟨us, vs, os, z, hx, hy, ho, hz, h⟩ := h
      have hl : us.length = vs.length := by rw [positions_length hx, positions_length hy]; exact hlen
      have ho' : os = [] ∨ os.length = us.length := by
        rw [positions_length hx]; exact hl0 ho hx0
      rw [bars_horizontal_lows _ _ _ _ _ _ hl ho'] at h
      by_cases hlab : c.labels.length ≤ us.length
      · rw [C63_bar_labels_partial false _ _ us vs hl (by exact hlab)] at h
        obtain ⟨shapes, h1, h2⟩ := (renderOps?_some hT).1 h
        refine ⟨c, us, vs, _, shapes, hc, hx, hy, hl, hlab, Or.inr ⟨hd, ⟨os, _, ho,
          (baseLine_iff P _ _).2 ⟨z, hz, rfl⟩, rfl⟩, ?_⟩, h2⟩
        rw [rowsPicture_eq]; exact h1
      · rw [bar_labels_surplus false _ _ _ _ (by exact hlab)] at h
        exact absurd h renderOps?_none
  · rintro ⟨c, us, vs, lows, shapes, hc, hx, hy, hl, hlab, h, h2⟩
    obtain ⟨hlen, hx0, hy0⟩ := hcfg c hc
    refine ⟨c, hc, ?_⟩
    rcases h with ⟨hd, ⟨os, z, ho, hz, rfl⟩, h1⟩ | ⟨hd, ⟨os, z, ho, hz, rfl⟩, h1⟩
    · obtain ⟨z', hz', rfl⟩ := (baseLine_iff P _ _).1 hz
      have ho' : os = [] ∨ os.length = vs.length := by
        rw [positions_length hy]; exact hl0 ho hy0
      rw [bars_vertical_iff hd]
      refine ⟨us, vs, os, z', hx, hy, ho, hz', ?_⟩
      rw [bars_vertical_lows _ _ _ _ _ _ hl ho', C63_bar_labels_partial true _ _ us vs hl (by exact hlab)]
      rw [columnsPicture_eq] at h1
      exact (renderOps?_some hT).2 ⟨shapes, h1, h2⟩
    · obtain ⟨z', hz', rfl⟩ := (baseLine_iff P _ _).1 hz
      have ho' : os = [] ∨ os.length = us.length := by
        rw [positions_length hx]; exact hl0 ho hx0
      rw [bars_horizontal_iff hd]
      refine ⟨us, vs, os, z', hx, hy, ho, hz', ?_⟩
      rw [bars_horizontal_lows _ _ _ _ _ _ hl ho', C63_bar_labels_partial false _ _ us vs hl (by exact hlab)]
      rw [rowsPicture_eq] at h1
      exact (renderOps?_some hT).2 ⟨shapes, h1, h2⟩

/-! ## Areas -/

theorem addPolyLine_eq (vs : List Vec2) : pathAddPolyLine [] vs = polyline vs := by
  cases vs <;> simp [pathAddPolyLine, polyline, lineTos]

theorem areas_lows {M K : Type} (vertical : Bool) (clip : Rect) (xs ys os : List ℝ) (zero : ℝ) (hl : xs.length = ys.length)
    (ho : os = [] ∨ os.length = xs.length) :
    let lows := if os = [] then List.replicate xs.length (clamp01 zero) else os
    let high := (xs.zip ys).map fun p => at_ clip p.1 p.2
    let low := if vertical then (xs.zip lows).map fun p => at_ clip p.1 p.2 else (lows.zip ys).map fun p => at_ clip p.1 p.2
    areasDraw (M := M) (K := K) vertical clip xs ys os zero =
      some [.path (ring (high ++ low.reverse)), .path (polyline high), .path (polyline low.reverse)] := by
  intro lows high low
  have hlow : lows.length = xs.length := by
    simp only [lows]
    split
    · simp
    · rename_i h; exact ho.resolve_left h
  have h1 : areaHigh clip xs ys = some (polyline high) := by
    unfold areaHigh
    rw [loop2 xs ys hl fun i x y => if i = 0 then PathCmd.moveTo (clip.x + x * clip.w) (clip.y + y * clip.h)
      else .lineTo (clip.x + x * clip.w) (clip.y + y * clip.h), ← polyline_mapIdx]
    congr 1
    apply List.ext_getElem
    · simp [high]
    · intro i h1 h2
      simp [high, at_]
  have h2 : areaLow vertical clip xs ys os zero = some low.reverse := by
    unfold areaLow
    rw [mapM_some_of _ (fun i => if vertical then at_ clip (xs.getD i 0) (lows.getD i 0)
      else at_ clip (lows.getD i 0) (ys.getD i 0))]
    · congr 1
      rw [List.map_reverse]
      congr 1
      cases vertical
      · simp only [low, Bool.false_eq_true, if_false]
        apply List.ext_getElem
        · simp [hlow, hl]
        · intro i h1 h2
          simp at h1 h2
          simp [h1, h2]
      · simp only [low, if_true]
        apply List.ext_getElem
        · simp [hlow]
        · intro i h1 h2
          simp at h1 h2
          simp [h1, h2]
    · intro i hi
      simp at hi
      have h4 : i < ys.length := by omega
      have h5 : i < lows.length := by omega
      by_cases he : os = []
      · have h6 : lows = List.replicate xs.length (clamp01 zero) := by simp [lows, he]
        simp only [h6]
        cases vertical <;> simp [hi, h4, he, at_]
      · have h6 : lows = os := by simp [lows, he]
        rw [h6] at h5 ⊢
        cases vertical <;> simp [hi, h4, h5, he, at_]
  have h4 : ring (high ++ low.reverse) = polyline high ++ lineTos low.reverse ++ [.close] := by
    cases hh : high with
    | nil =>
      have h6 : xs = [] := by
        apply List.length_eq_zero_iff.1
        have : high.length = 0 := by rw [hh]; rfl
        simp [high, ← hl] at this
        simpa using this
      have h7 : lows = [] := List.length_eq_zero_iff.1 (by rw [hlow, h6]; rfl)
      have : low = [] := by simp only [low, h6, h7]; split <;> simp
      simp [this, ring, polyline, lineTos]
    | cons v vs => simp [ring, polyline, lineTos]
  simp only [areasDraw, h1, h2, addPolyLine_eq, h4, Option.bind_eq_bind, Option.bind_some]
  rfl

theorem renderArea_draws {F : List φ} {dpi : ℝ} (c : AreasConf) (high low : List Vec2) :
    DrawsA F dpi (renderArea c (some [.path (ring (high ++ low.reverse)), .path (polyline high), .path (polyline low.reverse)]))
      (AreaPicture c high low) := by
  have := chain_draws (.cons (drawsA_path (F := F) (dpi := dpi) .default c.fill false (ring (high ++ low.reverse)))
    (.cons (drawsA_path c.strokeHigh .default false (polyline high))
      (.cons (drawsA_path c.strokeLow .default false (polyline low.reverse)) .nil)))
  exact this

theorem areasData_iff {P : PlotEnv φ} {c : AreasConf} {us uos vs vos : List ℝ} :
    areasData P c = .ok ((us, uos), (vs, vos)) ↔ Positions P c.scales.x c.x us ∧ Positions P c.scales.x c.xoffset uos ∧
      Positions P c.scales.y c.y vs ∧ Positions P c.scales.y c.yoffset vos := by
  unfold areasData
  simp only [except_bind, positions_iff, Pure.pure, Except.pure, Except.ok.injEq, Prod.mk.injEq]
  constructor
  · rintro ⟨_, h1, _, h2, _, h3, _, h4, ⟨rfl, rfl⟩, rfl, rfl⟩; exact ⟨h1, h2, h3, h4⟩
  · rintro ⟨h1, h2, h3, h4⟩; exact ⟨_, h1, _, h2, _, h3, _, h4, ⟨rfl, rfl⟩, rfl, rfl⟩

/-- The number of positions, for a series that may be missing. -/
theorem optional_length {P : PlotEnv φ} {sc : Scale} {b : DataBuffer (Option ℝ)} {os : List ℝ} {n : Nat}
    (h1 : Positions P sc b os) (h2 : b.index.length = 0 ∨ b.index.length = n) : os = [] ∨ os.length = n := by
  have := positions_length h1
  unfold databufLen at this
  rcases h2 with h2 | h2
  · left; exact List.length_eq_zero_iff.1 (this.trans h2)
  · right; exact this.trans h2

/-- C94: the areas of a plot. -/
theorem C94_areas (P : PlotEnv φ) (s s' : PlotState φ) (hp : s.layer.palette ≠ [])
    (args : List Expr) : areasCmd P args s = (s', none) ↔ ∃ c us vs uos vos lows shapes, areasConfigure P s args = .ok c ∧
      Positions P c.scales.x c.x us ∧ Positions P c.scales.y c.y vs ∧ us.length = vs.length ∧
      Positions P c.scales.x c.xoffset uos ∧ Positions P c.scales.y c.yoffset vos ∧
      ((c.direction = .vertical ∧ Lows P c.scales.y c.yoffset us.length lows ∧
          AreaPicture c ((us.zip vs).map fun p => at_ s.clip p.1 p.2) ((us.zip lows).map fun p => at_ s.clip p.1 p.2) shapes) ∨
       (c.direction = .horizontal ∧ Lows P c.scales.x c.xoffset us.length lows ∧
          AreaPicture c ((us.zip vs).map fun p => at_ s.clip p.1 p.2) ((lows.zip vs).map fun p => at_ s.clip p.1 p.2) shapes)) ∧
      s' = { s with layer := draw s.layer shapes } := by
  have hcfg : ∀ c, areasConfigure P s args = .ok c → Options.RangesFit c.x c.xoffset c.y c.yoffset := by
    intro c hc
    obtain ⟨o, hm, x, y, u, h1, h2, rfl⟩ := configured_ok (C90_areas P s hp args) hc
    exact h2
  unfold areasCmd
  rw [withConfig_iff]
  constructor
  · rintro ⟨c, hc, h⟩
    obtain ⟨hlen, hx0, hy0⟩ := hcfg c hc
    unfold areasRender at h
    cases hb : areasData P c with
    | error f => simp [hb] at h
    | ok r =>
      obtain ⟨⟨us, uos⟩, vs, vos⟩ := r
      obtain ⟨hx, hxo, hy, hyo⟩ := areasData_iff.1 hb
      have hl : us.length = vs.length := by rw [positions_length hx, positions_length hy]; exact hlen
      cases hd : c.direction with
      | horizontal =>
        cases hz : translateZero c.scales.x with
        | error f => simp [hb, hd, hz] at h
        | ok z =>
          simp only [hb, hd, hz] at h
          have ho' : uos = [] ∨ uos.length = us.length := by
            rw [positions_length hx]; exact optional_length hxo hx0
          rw [areas_lows false _ _ _ _ _ hl ho'] at h
          simp only [Bool.false_eq_true, if_false] at h
          rw [drawOn_iff (renderArea_draws c _ _)] at h
          obtain ⟨shapes, h1, h2⟩ := h
          exact ⟨c, us, vs, uos, vos, _, shapes, hc, hx, hy, hl, hxo, hyo, Or.inr ⟨hd, ⟨uos, _, hxo,
            (baseLine_iff P _ _).2 ⟨z, hz, rfl⟩, rfl⟩, h1⟩, h2⟩
      | vertical =>
        cases hz : translateZero c.scales.y with
        | error f => simp [hb, hd, hz] at h
        | ok z =>
          simp only [hb, hd, hz] at h
          have ho' : vos = [] ∨ vos.length = us.length := by
            rw [hl, positions_length hy]; exact optional_length hyo hy0
          rw [areas_lows true _ _ _ _ _ hl ho'] at h
          simp only [if_true] at h
          rw [drawOn_iff (renderArea_draws c _ _)] at h
          obtain ⟨shapes, h1, h2⟩ := h
          exact ⟨c, us, vs, uos, vos, _, shapes, hc, hx, hy, hl, hxo, hyo, Or.inl ⟨hd, ⟨vos, _, hyo,
            (baseLine_iff P _ _).2 ⟨z, hz, rfl⟩, rfl⟩, h1⟩, h2⟩
  · rintro ⟨c, us, vs, uos, vos, lows, shapes, hc, hx, hy, hl, hxo, hyo, h, h2⟩
    obtain ⟨hlen, hx0, hy0⟩ := hcfg c hc
    refine ⟨c, hc, ?_⟩
    unfold areasRender
    rw [areasData_iff.2 ⟨hx, hxo, hy, hyo⟩]
    rcases h with ⟨hd, ⟨os, z, ho, hz, rfl⟩, h1⟩ | ⟨hd, ⟨os, z, ho, hz, rfl⟩, h1⟩
    · obtain ⟨z', hz', rfl⟩ := (baseLine_iff P _ _).1 hz
      have e : os = vos := Except.ok.inj (((positions_iff _ _ _ _).2 ho).symm.trans ((positions_iff _ _ _ _).2 hyo))
      subst e
      have ho' : os = [] ∨ os.length = us.length := by
        rw [hl, positions_length hy]; exact optional_length hyo hy0
      simp only [hd, hz']
      rw [areas_lows true _ _ _ _ _ hl ho']
      simp only [if_true]
      exact (drawOn_iff (renderArea_draws c _ _)).2 ⟨shapes, h1, h2⟩
    · obtain ⟨z', hz', rfl⟩ := (baseLine_iff P _ _).1 hz
      have e : os = uos := Except.ok.inj (((positions_iff _ _ _ _).2 ho).symm.trans ((positions_iff _ _ _ _).2 hxo))
      subst e
      have ho' : os = [] ∨ os.length = us.length := by
        rw [positions_length hx]; exact optional_length hxo hx0
      simp only [hd, hz']
      rw [areas_lows false _ _ _ _ _ hl ho']
      simp only [Bool.false_eq_true, if_false]
      exact (drawOn_iff (renderArea_draws c _ _)).2 ⟨shapes, h1, h2⟩

/-! ## Error bars -/

theorem chain_mapIdx {α : Type} {F : List φ} {dpi : ℝ} {f : Nat → α → Layer φ → Layer φ × Option Fail}
    {Q : Nat → α → List DrawCmd → Prop} (h : ∀ i a, DrawsA F dpi (f i a) (Q i a)) (l : List α) :
    DrawsA F dpi (tryChain (l.mapIdx f)) (InOrder (l.mapIdx Q)) := by
  apply chain_draws
  induction l generalizing f Q with
  | nil => exact .nil
  | cons a l ih =>
    rw [List.mapIdx_cons, List.mapIdx_cons]
    exact .cons (h 0 a) (ih fun i a => h (i + 1) a)

theorem zipWith3_zip {α β γ δ : Type} (f : α → β → γ → δ) : ∀ (a : List α) (b : List β) (c : List γ),
    List.zipWith3 f a b c = (a.zip (b.zip c)).map fun p => f p.1 p.2.1 p.2.2
  | [], _, _ => by simp [List.zipWith3]
  | _ :: _, [], _ => by simp [List.zipWith3]
  | _ :: _, _ :: _, [] => by simp [List.zipWith3]
  | a :: as, b :: bs, c :: cs => by simp [List.zipWith3, zipWith3_zip f as bs cs]

theorem mapIdx_of_map {α β γ : Type} (f : Nat → β → γ) (g : α → β) (l : List α) :
    (l.map g).mapIdx f = l.mapIdx fun i a => f i (g a) := by
  apply List.ext_getElem
  · simp
  · intro i h1 h2
    simp

theorem zipIdx_mapIdx {α β : Type} (f : Nat → α → β) (l : List α) : (l.zipIdx.map fun p => f p.2 p.1) = l.mapIdx f := by
  apply List.ext_getElem
  · simp
  · intro i h1 h2
    simp

theorem errorbarsData_iff {P : PlotEnv φ} {c : ErrorbarsConf} {x xl xh y yl yh : List ℝ} :
    errorbarsData P c = .ok ((x, xl, xh), (y, yl, yh)) ↔ (Positions P c.scales.x c.x x ∧ Positions P c.scales.x c.xLow xl ∧
      Positions P c.scales.x c.xHigh xh) ∧ Positions P c.scales.y c.y y ∧ Positions P c.scales.y c.yLow yl ∧
      Positions P c.scales.y c.yHigh yh := by
  unfold errorbarsData
  simp only [except_bind, positions_iff, Pure.pure, Except.pure, Except.ok.injEq, Prod.mk.injEq]
  constructor
  · rintro ⟨_, h1, _, h2, _, h3, _, h4, _, h5, _, h6, ⟨rfl, rfl, rfl⟩, rfl, rfl, rfl⟩; exact ⟨⟨h1, h2, h3⟩, h4, h5, h6⟩
  · rintro ⟨⟨h1, h2, h3⟩, h4, h5, h6⟩; exact ⟨_, h1, _, h2, _, h3, _, h4, _, h5, _, h6, ⟨rfl, rfl, rfl⟩, rfl, rfl, rfl⟩

theorem vertical_draws (s : PlotState φ) (c : ErrorbarsConf) (x lo hi : List ℝ) :
    DrawsA s.layer.fonts s.layer.size.dpi (tryChain (renderErrorbars c (errorbarsDraw s.clip x [] [] [] lo hi)))
      (VerticalErrorbars s c x lo hi) := by
  have e : errorbarsDraw s.clip x [] [] [] lo hi = (x.zip (lo.zip hi)).map fun p =>
      (at_ s.clip p.1 p.2.1, at_ s.clip p.1 p.2.2) := by
    rw [C63_errorbars_vertical_partial, zipWith3_zip]
  unfold renderErrorbars VerticalErrorbars
  rw [e, zipIdx_mapIdx (fun i p => renderErrorbar c.strokeWidth c.barWidth (cycleOr c.strokeColor c.colors i) p),
    mapIdx_of_map]
  refine chain_mapIdx (fun i p => ?_) _
  simp only [Function.comp, nth_eq]
  exact drawsA_errorbar _ _ _ _ _

theorem horizontal_draws (s : PlotState φ) (c : ErrorbarsConf) (y lo hi : List ℝ) :
    DrawsA s.layer.fonts s.layer.size.dpi (tryChain (renderErrorbars c (errorbarsDraw s.clip [] lo hi y [] [])))
      (HorizontalErrorbars s c y lo hi) := by
  have e : errorbarsDraw s.clip [] lo hi y [] [] = (y.zip (lo.zip hi)).map fun p =>
      (at_ s.clip p.2.1 p.1, up (s.clip.x - s.clip.y) (at_ s.clip p.2.2 p.1)) := by
    simp only [errorbarsDraw, zipWith3_zip, List.zip_nil_left, List.map_nil, List.nil_append]
    apply List.map_congr_left
    intro p _
    simp only [errorbarHorizontal, at_, up, Prod.mk.injEq, Vec2.mk.injEq, true_and]
    ring
  unfold renderErrorbars HorizontalErrorbars
  rw [e, zipIdx_mapIdx (fun i p => renderErrorbar c.strokeWidth c.barWidth (cycleOr c.strokeColor c.colors i) p),
    mapIdx_of_map]
  refine chain_mapIdx (fun i p => ?_) _
  simp only [Function.comp, nth_eq]
  exact drawsA_errorbar _ _ _ _ _

/-- C94: the error bars of a plot, vertical or horizontal ones (violated by the code: the latter are slanted if the margins
of the plot at the left and at the bottom differ). -/
theorem C94_errorbars (P : PlotEnv φ) (s s' : PlotState φ) (hp : s.layer.palette ≠ [])
    (args : List Expr) : errorbarsCmd P args s = (s', none) ↔ ∃ c us ul uh vs vl vh shapes,
      errorbarsConfigure P s args = .ok c ∧
      (Positions P c.scales.x c.x us ∧ Positions P c.scales.x c.xLow ul ∧ Positions P c.scales.x c.xHigh uh) ∧
      (Positions P c.scales.y c.y vs ∧ Positions P c.scales.y c.yLow vl ∧ Positions P c.scales.y c.yHigh vh) ∧
      ((us ≠ [] ∧ vs = [] ∧ vl.length = us.length ∧ vh.length = us.length ∧ VerticalErrorbars s c us vl vh shapes) ∨
       (vs ≠ [] ∧ us = [] ∧ ul.length = vs.length ∧ uh.length = vs.length ∧ HorizontalErrorbars s c vs ul uh shapes)) ∧
      s' = { s with layer := draw s.layer shapes } := by
  have hcfg : ∀ c, errorbarsConfigure P s args = .ok c →
      ((c.x.index ≠ [] ∧ c.y.index = [] ∧ c.yLow.index.length = c.x.index.length ∧ c.yHigh.index.length = c.x.index.length) ∨
       (c.y.index ≠ [] ∧ c.x.index = [] ∧ c.xLow.index.length = c.y.index.length ∧ c.xHigh.index.length = c.y.index.length)) := by
    intro c hc
    obtain ⟨o, hm, cs, -, rfl, h2⟩ := configured_ok (C90_errorbars P s hp args) hc
    exact h2
  have hlen : ∀ {sc : Scale} {b : DataBuffer (Option ℝ)} {os : List ℝ}, Positions P sc b os → os.length = b.index.length :=
    fun h => positions_length h
  have hnil : ∀ {sc : Scale} {b : DataBuffer (Option ℝ)} {os : List ℝ}, Positions P sc b os → (os = [] ↔ b.index = []) := by
    intro sc b os h
    rw [← List.length_eq_zero_iff, ← List.length_eq_zero_iff, hlen h]
  have hv : ∀ c (us vl vh : List ℝ) (ul uh : List ℝ),
      DrawsA s.layer.fonts s.layer.size.dpi (tryChain (renderErrorbars c (errorbarsDraw s.clip us [] [] [] vl vh) ++
        renderErrorbars c (errorbarsDraw s.clip [] ul uh [] [] []))) (VerticalErrorbars s c us vl vh) := by
    intro c us vl vh ul uh
    have : (renderErrorbars c (errorbarsDraw s.clip [] ul uh [] [] []) : List (Layer φ → Layer φ × Option Fail)) = [] := by
      simp [renderErrorbars, errorbarsDraw, zipWith3_zip]
    rw [this, List.append_nil]
    exact vertical_draws s c us vl vh
  have hh : ∀ c (vs vl vh : List ℝ) (ul uh : List ℝ),
      DrawsA s.layer.fonts s.layer.size.dpi (tryChain (renderErrorbars c (errorbarsDraw s.clip [] [] [] [] vl vh) ++
        renderErrorbars c (errorbarsDraw s.clip [] ul uh vs [] []))) (HorizontalErrorbars s c vs ul uh) := by
    intro c vs vl vh ul uh
    have : (renderErrorbars c (errorbarsDraw s.clip [] [] [] [] vl vh) : List (Layer φ → Layer φ × Option Fail)) = [] := by
      simp [renderErrorbars, errorbarsDraw, zipWith3_zip]
    rw [this, List.nil_append]
    exact horizontal_draws s c vs ul uh
  unfold errorbarsCmd
  rw [withConfig_iff]
  constructor
  · rintro ⟨c, hc, h⟩
    unfold errorbarsRender at h
    cases hb : errorbarsData P c with
    | error f => simp [hb] at h
    | ok r =>
      obtain ⟨⟨us, ul, uh⟩, vs, vl, vh⟩ := r
      obtain ⟨⟨h1, h2, h3⟩, h4, h5, h6⟩ := errorbarsData_iff.1 hb
      simp only [hb] at h
      rcases hcfg c hc with ⟨a, b, d, e⟩ | ⟨a, b, d, e⟩
      · have hvs := (hnil h4).2 b
        subst hvs
        obtain ⟨shapes, h7, h8⟩ := (drawOn_iff (hv c us vl vh ul uh)).1 h
        exact ⟨c, us, ul, uh, [], vl, vh, shapes, hc, ⟨h1, h2, h3⟩, ⟨h4, h5, h6⟩, Or.inl ⟨fun x => a ((hnil h1).1 x), rfl,
          by rw [hlen h5, hlen h1, d], by rw [hlen h6, hlen h1, e], h7⟩, h8⟩
      · have hvs := (hnil h1).2 b
        subst hvs
        obtain ⟨shapes, h7, h8⟩ := (drawOn_iff (hh c vs vl vh ul uh)).1 h
        exact ⟨c, [], ul, uh, vs, vl, vh, shapes, hc, ⟨h1, h2, h3⟩, ⟨h4, h5, h6⟩, Or.inr ⟨fun x => a ((hnil h4).1 x), rfl,
          by rw [hlen h2, hlen h4, d], by rw [hlen h3, hlen h4, e], h7⟩, h8⟩
  · rintro ⟨c, us, ul, uh, vs, vl, vh, shapes, hc, h1, h2, h3, h4⟩
    refine ⟨c, hc, ?_⟩
    unfold errorbarsRender
    rw [errorbarsData_iff.2 ⟨h1, h2⟩]
    rcases h3 with ⟨-, rfl, -, -, h7⟩ | ⟨-, rfl, -, -, h7⟩
    · exact (drawOn_iff (hv c us vl vh ul uh)).2 ⟨shapes, h7, h4⟩
    · exact (drawOn_iff (hh c vs vl vh ul uh)).2 ⟨shapes, h7, h4⟩

/-! ## Rectangles, vectors -/

theorem rectanglesData_iff {P : PlotEnv φ} {c : RectanglesConf} {us vs ws hs : List ℝ} :
    rectanglesData P c = .ok ((us, vs), (ws, hs)) ↔ Positions P c.scales.x c.x us ∧ Positions P c.scales.y c.y vs ∧
      Lengths P c.scales.x c.sizeX ws ∧ Lengths P c.scales.y c.sizeY hs := by
  unfold rectanglesData
  simp only [except_bind, positions_iff, lengths_iff, Pure.pure, Except.pure, Except.ok.injEq, Prod.mk.injEq]
  constructor
  · rintro ⟨_, h1, _, h2, _, h3, _, h4, ⟨rfl, rfl⟩, rfl, rfl⟩; exact ⟨h1, h2, h3, h4⟩
  · rintro ⟨h1, h2, h3, h4⟩; exact ⟨_, h1, _, h2, _, h3, _, h4, ⟨rfl, rfl⟩, rfl, rfl⟩

theorem vectorsData_iff {P : PlotEnv φ} {c : VectorsConf} {us vs ws hs : List ℝ} :
    vectorsData P c = .ok ((us, vs), (ws, hs)) ↔ Positions P c.scales.x c.x us ∧ Positions P c.scales.y c.y vs ∧
      Lengths P c.scales.x c.dx ws ∧ Lengths P c.scales.y c.dy hs := by
  unfold vectorsData
  simp only [except_bind, positions_iff, lengths_iff, Pure.pure, Except.pure, Except.ok.injEq, Prod.mk.injEq]
  constructor
  · rintro ⟨_, h1, _, h2, _, h3, _, h4, ⟨rfl, rfl⟩, rfl, rfl⟩; exact ⟨h1, h2, h3, h4⟩
  · rintro ⟨h1, h2, h3, h4⟩; exact ⟨_, h1, _, h2, _, h3, _, h4, ⟨rfl, rfl⟩, rfl, rfl⟩

theorem rectangles_draws (s : PlotState φ) (c : RectanglesConf) (us vs ws hs : List ℝ) :
    DrawsA s.layer.fonts s.layer.size.dpi (tryChain ((((us.zip vs).mapIdx fun i p =>
      let w := cycleOr c.sizeXDefault (ws.map (· * s.clip.w)) i
      let h := cycleOr c.sizeYDefault (hs.map (· * s.clip.h)) i
      let o := at_ s.clip p.1 p.2
      (PlotOp.path (ring [⟨o.x + w / 2, o.y + h / 2⟩, ⟨o.x + w / 2, o.y - h / 2⟩, ⟨o.x - w / 2, o.y - h / 2⟩,
        ⟨o.x - w / 2, o.y + h / 2⟩]) : PlotOp Marker Color)).zipIdx.map fun p => renderRect c p.1 p.2)))
      (RectanglesPicture s c us vs ws hs) := by
  rw [zipIdx_mapIdx (fun i (p : PlotOp Marker Color) => renderRect (φ := φ) c p i)]
  have e : ∀ {α β γ : Type} (f : Nat → α → β) (g : Nat → β → γ) (l : List α),
      (l.mapIdx f).mapIdx g = l.mapIdx fun i a => g i (f i a) := by
    intro α β γ f g l
    apply List.ext_getElem
    · simp
    · intro i h1 h2
      simp
  rw [e]
  unfold RectanglesPicture
  refine chain_mapIdx (fun i p => ?_) _
  have := drawsA_path (F := s.layer.fonts) (dpi := s.layer.size.dpi) .default ⟨some (cycleOr c.color c.colors i), none⟩ true
    (box (at_ s.clip p.1 p.2) (cycleOr c.sizeXDefault (ws.map (· * s.clip.w)) i) (cycleOr c.sizeYDefault (hs.map (· * s.clip.h)) i))
  rw [styled_fill] at this
  simp only [nth_eq] at this
  have e2 : ∀ (op : PlotOp Marker Color) (p : Path), op = .path p → renderRect (φ := φ) c op i = fun L =>
      (renderPath .default ⟨some (nth c.color c.colors i), none⟩ true p L, none) := by
    rintro _ p rfl
    funext L
    simp only [renderRect, nth_eq]
  simp only [nth_eq]
  rw [e2 _ _ rfl]
  exact this

/-- C94: the rectangles of a plot. -/
theorem C94_rectangles (P : PlotEnv φ) (s s' : PlotState φ) (hp : s.layer.palette ≠ [])
    (args : List Expr) : rectanglesCmd P args s = (s', none) ↔ ∃ c us vs ws hs shapes, rectanglesConfigure P s args = .ok c ∧
      Positions P c.scales.x c.x us ∧ Positions P c.scales.y c.y vs ∧ us.length = vs.length ∧
      Lengths P c.scales.x c.sizeX ws ∧ Lengths P c.scales.y c.sizeY hs ∧
      RectanglesPicture s c us vs ws hs shapes ∧ s' = { s with layer := draw s.layer shapes } := by
  have hcfg : ∀ c, rectanglesConfigure P s args = .ok c → databufLen c.x = databufLen c.y := by
    intro c hc
    obtain ⟨o, hm, x, y, cs, ⟨u, h1, h2⟩, -, rfl⟩ := configured_ok (C90_rectangles P s hp args) hc
    exact h2
  unfold rectanglesCmd
  rw [withConfig_iff]
  constructor
  · rintro ⟨c, hc, h⟩
    have hlen := hcfg c hc
    unfold rectanglesRender at h
    cases hb : rectanglesData P c with
    | error f => simp [hb] at h
    | ok r =>
      obtain ⟨⟨us, vs⟩, ws, hs⟩ := r
      obtain ⟨h1, h2, h3, h4⟩ := rectanglesData_iff.1 hb
      have hl : us.length = vs.length := by rw [positions_length h1, positions_length h2, hlen]
      simp only [hb] at h
      rw [C63_rectangles _ _ us vs ws hs hl] at h
      obtain ⟨shapes, h5, h6⟩ := (drawOn_iff (rectangles_draws s c us vs ws hs)).1 h
      exact ⟨c, us, vs, ws, hs, shapes, hc, h1, h2, hl, h3, h4, h5, h6⟩
  · rintro ⟨c, us, vs, ws, hs, shapes, hc, h1, h2, hl, h3, h4, h5, h6⟩
    refine ⟨c, hc, ?_⟩
    unfold rectanglesRender
    rw [rectanglesData_iff.2 ⟨h1, h2, h3, h4⟩]
    simp only
    rw [C63_rectangles _ _ us vs ws hs hl]
    exact (drawOn_iff (rectangles_draws s c us vs ws hs)).2 ⟨shapes, h5, h6⟩

/-- C94: the vectors of a plot.  They are drawn if every point has a direction, and no direction is 0. -/
theorem C94_vectors (P : PlotEnv φ) (hT : LevelsOfChars P.text) (s s' : PlotState φ) (hp : s.layer.palette ≠ [])
    (args : List Expr) : vectorsCmd P args s = (s', none) ↔ ∃ c us vs dus dvs shapes, vectorsConfigure P s args = .ok c ∧
      Positions P c.scales.x c.x us ∧ Positions P c.scales.y c.y vs ∧ us.length = vs.length ∧
      Lengths P c.scales.x c.dx dus ∧ Lengths P c.scales.y c.dy dvs ∧ us.length ≤ dus.length ∧ vs.length ≤ dvs.length ∧
      VectorsPicture s c us vs dus dvs shapes ∧ s' = { s with layer := draw s.layer shapes } := by
  have hcfg : ∀ c, vectorsConfigure P s args = .ok c → databufLen c.x = databufLen c.y := by
    intro c hc
    obtain ⟨o, hm, x, y, cs, ss, ⟨u, h1, h2⟩, -, -, rfl⟩ := configured_ok (C90_vectors P s hp args) hc
    exact h2
  have hpic : ∀ (c : VectorsConf) (us vs dus dvs : List ℝ), VectorsPicture s c us vs dus dvs = InOrder
      ((((us.zip vs).zip (dus.zip dvs)).mapIdx fun i (p : (ℝ × ℝ) × ℝ × ℝ) => PlotOp.arrow (cycleOr Marker.disk [] i)
        (at_ s.clip p.1.1 p.1.2) (at_ s.clip (p.1.1 + p.2.1) (p.1.2 + p.2.2)) (cycleOr c.size c.sizes i)
        (cycleOr c.color c.colors i)).map (OpPicture P.text {} s.layer.fonts s.layer.size.dpi)) := by
    intro c us vs dus dvs
    unfold VectorsPicture
    simp only [mapIdx_map, OpPicture, nth_eq]
  unfold vectorsCmd
  rw [withConfig_iff]
  constructor
  · rintro ⟨c, hc, h⟩
    have hlen := hcfg c hc
    unfold vectorsRender at h
    cases hb : vectorsData P c with
    | error f => simp [hb] at h
    | ok r =>
      obtain ⟨⟨us, vs⟩, ws, hs⟩ := r
      obtain ⟨h1, h2, h3, h4⟩ := vectorsData_iff.1 hb
      have hl : us.length = vs.length := by rw [positions_length h1, positions_length h2, hlen]
      simp only [hb] at h
      by_cases hx : us.length ≤ ws.length
      · by_cases hy : us.length ≤ hs.length
        · rw [C63_vectors_partial _ _ _ _ _ _ _ us vs ws hs hl hx hy] at h
          obtain ⟨shapes, h5, h6⟩ := (renderOps?_some hT).1 h
          refine ⟨c, us, vs, ws, hs, shapes, hc, h1, h2, hl, h3, h4, hx, hl ▸ hy, ?_, h6⟩
          rw [hpic]
          exact h5
        · exfalso
          have : vectorsDraw s.clip Marker.disk [] c.size c.sizes c.color c.colors us vs ws hs = none := by
            unfold vectorsDraw
            apply mapM_none_of _ _ hs.length (by simpa using hy)
            have : hs[hs.length]? = none := by simp
            rw [this]
            cases us[hs.length]? <;> cases vs[hs.length]? <;> cases ws[hs.length]? <;> simp
          rw [this] at h
          exact renderOps?_none h
      · rw [C63_vectors_missing_direction _ _ _ _ _ _ _ _ _ _ _ (not_le.1 hx)] at h
        exact absurd h renderOps?_none
  · rintro ⟨c, us, vs, ws, hs, shapes, hc, h1, h2, hl, h3, h4, hx, hy, h5, h6⟩
    refine ⟨c, hc, ?_⟩
    unfold vectorsRender
    rw [vectorsData_iff.2 ⟨h1, h2, h3, h4⟩]
    simp only
    rw [C63_vectors_partial _ _ _ _ _ _ _ us vs ws hs hl hx (hl ▸ hy)]
    rw [hpic] at h5
    exact (renderOps?_some hT).2 ⟨shapes, h5, h6⟩

/-! ## Polygons, grid, background -/

theorem addRing_eq (p : Path) (vs : List Vec2) : pathAddPolyRing p vs = p ++ outline vs := by
  cases vs <;> simp [pathAddPolyRing, outline, ring, polyline, lineTos]

theorem polyPath_eq (p : Poly2) : pathFromPoly2 p = outline p.boundary ++ (p.holes.map outline).flatten := by
  have h : ∀ (hs : List (List Vec2)) (p : Path), hs.foldl pathAddPolyRing p = p ++ (hs.map outline).flatten := by
    intro hs
    induction hs with
    | nil => simp
    | cons a hs ih => intro p; simp [ih, addRing_eq]
  rw [pathFromPoly2, h, addRing_eq, List.nil_append]

theorem polyPoint_iff (P : PlotEnv φ) (clip : Rect) (c : Scales) (v q : Vec2) : polyPoint clip c v = some q ↔
    ∃ u w, InsidePlace P c.x v.x u ∧ InsidePlace P c.y v.y w ∧ q = at_ clip u w := by
  unfold polyPoint InsidePlace
  simp only [placeOf_iff, ← clamp01_minmax, Option.bind_eq_bind, Option.bind_eq_some_iff, Option.pure_def, Option.some.injEq]
  constructor
  · rintro ⟨a, h1, b, h2, rfl⟩
    exact ⟨_, _, ⟨a, h1, rfl⟩, ⟨b, h2, rfl⟩, by simp [at_, add_comm]⟩
  · rintro ⟨_, _, ⟨a, h1, rfl⟩, ⟨b, h2, rfl⟩, rfl⟩
    exact ⟨a, h1, b, h2, by simp [at_, add_comm]⟩

theorem inOrder_iff {α : Type} {Q : α → List DrawCmd → Prop} {l : List α} {shapes : List DrawCmd} :
    InOrder (l.map Q) shapes ↔ ∃ pictures, List.Forall₂ Q l pictures ∧ shapes = pictures.flatten := by
  unfold InOrder
  simp only [List.forall₂_map_left_iff]

/-- C94: the polygons of a plot.  What their corners add to the limits of the scales stays (violated by the code: drawing
may change the limits, C48; and holes are drawn in units of the page). -/
theorem C94_polygons (P : PlotEnv φ) (s s' : PlotState φ) (args : List Expr) :
    polygonsCmd P args s = (s', none) ↔ ∃ c shapes, polygonsConfigure P s args = .ok c ∧
      InOrder (c.polys.map (PolygonPart P s c)) shapes ∧
      s' = { s with
        layer := draw s.layer shapes
        scales := ⟨{ s.scales.x with hints := c.scales.x.hints }, { s.scales.y with hints := c.scales.y.hints }⟩ } := by
  unfold polygonsCmd
  rw [withConfig_iff]
  refine exists_congr fun c => ?_
  have hclip : (shareHints c.scales s).clip = s.clip := rfl
  have hparts : ∀ ps : List Poly2, c.polys.mapM (polyTransform s.clip c.scales) = some ps ↔
      List.Forall₂ (fun p q => ∃ corners, List.Forall₂ (fun (v : Vec2) (q : Vec2) => ∃ u w, InsidePlace P c.scales.x v.x u ∧
      InsidePlace P c.scales.y v.y w ∧ q = at_ s.clip u w) p.boundary corners ∧ q = { p with boundary := corners }) c.polys ps := by
    intro ps
    rw [mapM_forall2]
    apply forall2_congr
    intro p q
    unfold polyTransform
    simp only [Option.bind_eq_bind, Option.bind_eq_some_iff, Option.pure_def, Option.some.injEq, mapM_forall2, polyPoint_iff P]
    constructor
    · rintro ⟨b, h1, h2⟩; exact ⟨b, h1, h2.symm⟩
    · rintro ⟨b, h1, h2⟩; exact ⟨b, h1, h2.symm⟩
  have hpic : ∀ shapes, InOrder (c.polys.map (PolygonPart P s c)) shapes ↔ ∃ ps,
      c.polys.mapM (polyTransform s.clip c.scales) = some ps ∧
      shapes = ps.map fun p => ⟨pathFromPoly2 p, styled c.stroke c.fill, false⟩ := by
    intro shapes
    rw [inOrder_iff]
    simp only [hparts]
    have e : ∀ (pic : List (List DrawCmd)), List.Forall₂ (PolygonPart P s c) c.polys pic ↔ ∃ ps,
        List.Forall₂ (fun p q => ∃ corners, List.Forall₂ (fun (v : Vec2) (q : Vec2) => ∃ u w, InsidePlace P c.scales.x v.x u ∧
        InsidePlace P c.scales.y v.y w ∧ q = at_ s.clip u w) p.boundary corners ∧ q = { p with boundary := corners }) c.polys ps ∧
        List.Forall₂ (fun (q : Poly2) (sh : List DrawCmd) => sh = [⟨pathFromPoly2 q, styled c.stroke c.fill, false⟩]) ps pic := by
      intro pic
      rw [forall2_comp]
      apply forall2_congr
      intro p sh
      unfold PolygonPart Shape
      constructor
      · rintro ⟨corners, h1, rfl⟩
        exact ⟨_, ⟨corners, h1, rfl⟩, by rw [polyPath_eq]⟩
      · rintro ⟨_, ⟨corners, h1, rfl⟩, rfl⟩
        exact ⟨corners, h1, by rw [polyPath_eq]⟩
    have e2 : ∀ (ps : List Poly2) (pic : List (List DrawCmd)), List.Forall₂ (fun (q : Poly2) (sh : List DrawCmd) =>
        sh = [⟨pathFromPoly2 q, styled c.stroke c.fill, false⟩]) ps pic ↔
        pic = ps.map fun p => [⟨pathFromPoly2 p, styled c.stroke c.fill, false⟩] := by
      intro ps
      induction ps with
      | nil => intro pic; simp
      | cons p ps ih =>
        intro pic
        cases pic with
        | nil => simp
        | cons a pic => simp [ih]
    have hsing : ∀ ps : List Poly2, (ps.map fun p => [(⟨pathFromPoly2 p, styled c.stroke c.fill, false⟩ : DrawCmd)]).flatten =
        ps.map fun p => ⟨pathFromPoly2 p, styled c.stroke c.fill, false⟩ := by
      intro ps
      induction ps with
      | nil => rfl
      | cons p ps ih => simp [ih]
    simp only [e, e2]
    constructor
    · rintro ⟨pic, ⟨ps, h1, rfl⟩, rfl⟩
      refine ⟨ps, h1, ?_⟩
      exact hsing ps
    · rintro ⟨ps, h1, rfl⟩
      refine ⟨_, ⟨ps, h1, rfl⟩, ?_⟩
      exact (hsing ps).symm
  have hfold : ∀ (ps : List Poly2) (L : Layer φ), ps.foldl (fun L p => renderPath c.stroke c.fill false (pathFromPoly2 p) L) L =
      draw L (ps.map fun p => ⟨pathFromPoly2 p, styled c.stroke c.fill, false⟩) := by
    intro ps
    induction ps with
    | nil => intro L; exact (draw_nil L).symm
    | cons p ps ih =>
      intro L
      rw [List.foldl_cons, ih, renderPath_eq, draw_draw]
      rfl
  have key : (match c.polys.mapM (polyTransform (shareHints c.scales s).clip c.scales) with
      | none => (shareHints c.scales s, some Fail.undefined)
      | some ps => drawOn (shareHints c.scales s) ((ps.foldl (fun L p => renderPath c.stroke c.fill false (pathFromPoly2 p) L)
        (shareHints c.scales s).layer), none)) = (s', none) ↔ ∃ shapes, InOrder (c.polys.map (PolygonPart P s c)) shapes ∧
      s' = { s with
        layer := draw s.layer shapes
        scales := ⟨{ s.scales.x with hints := c.scales.x.hints }, { s.scales.y with hints := c.scales.y.hints }⟩ } := by
    rw [hclip]
    simp only [hpic]
    cases c.polys.mapM (polyTransform s.clip c.scales) with
    | none => simp
    | some ps =>
      simp only [Option.some.injEq]
      constructor
      · intro h
        unfold drawOn at h
        simp only [hfold, Prod.mk.injEq, and_true] at h
        exact ⟨_, ⟨ps, rfl, rfl⟩, h.symm⟩
      · rintro ⟨_, ⟨_, rfl, rfl⟩, rfl⟩
        unfold drawOn
        simp only [hfold, Prod.mk.injEq, and_true]
        rfl
  constructor
  · rintro ⟨hc, h⟩
    obtain ⟨shapes, h1, h2⟩ := key.1 h
    exact ⟨shapes, hc, h1, h2⟩
  · rintro ⟨shapes, hc, h1, h2⟩
    exact ⟨hc, key.2 ⟨shapes, h1, h2⟩⟩

/-- C94: the grid of a plot: lines at the positions that the placement gives (violated by the code: the horizontal lines are
upside down). -/
theorem C94_grid (P : PlotEnv φ) (hT : LevelsOfChars P.text) (s s' : PlotState φ) (args : List Expr) :
    gridCmd P args s = (s', none) ↔ ∃ c us vs tus tvs shapes, gridConfigure P s args = .ok c ∧
      Layout P (gridPlacement c.layoutX c.scales.x) c.scales.x formatNoop us tus ∧
      Layout P (gridPlacement c.layoutY c.scales.y) c.scales.y formatNoop vs tvs ∧
      GridPicture s c us vs shapes ∧ s' = { s with layer := draw s.layer shapes } := by
  have hpl : ∀ (o : Option TickSpec) (sc : Scale), o.getD (defaultTicks sc none) = gridPlacement o sc := by
    intro o sc
    unfold defaultTicks gridPlacement
    cases sc.kind <;> rfl
  have hpic : ∀ (c : GridConf) (us vs : List ℝ), GridPicture s c us vs =
      InOrder ((gridDraw s.clip us vs).map (OpPicture P.text { stroke := c.stroke } s.layer.fonts s.layer.size.dpi)) := by
    intro c us vs
    unfold GridPicture gridDraw
    simp only [List.map_append, List.map_map]
    congr 2
    · apply List.map_congr_left
      intro u _
      simp [OpPicture, pathAddLine, polyline, at_, mul_comm]
    · apply List.map_congr_left
      intro u _
      simp [OpPicture, pathAddLine, polyline, at_, mul_comm]
  unfold gridCmd
  rw [withConfig_iff]
  constructor
  · rintro ⟨c, hc, h⟩
    unfold gridRender at h
    rw [hpl, hpl] at h
    cases h1 : tickPositions P (gridPlacement c.layoutX c.scales.x) c.scales.x formatNoop with
    | none => simp [h1] at h
    | some p =>
      cases h2 : tickPositions P (gridPlacement c.layoutY c.scales.y) c.scales.y formatNoop with
      | none => simp [h1, h2] at h
      | some q =>
        simp only [h1, h2] at h
        obtain ⟨shapes, h5, h6⟩ := (drawOn_iff (drawsA_ops hT _ _)).1 h
        refine ⟨c, p.1, q.1, p.2, q.2, shapes, hc, tickPositions_ok.1 h1, tickPositions_ok.1 h2, ?_, h6⟩
        rw [hpic]
        exact h5
  · rintro ⟨c, us, vs, tus, tvs, shapes, hc, h1, h2, h5, h6⟩
    refine ⟨c, hc, ?_⟩
    unfold gridRender
    rw [hpl, hpl, tickPositions_ok.2 h1, tickPositions_ok.2 h2]
    rw [hpic] at h5
    exact (drawOn_iff (drawsA_ops hT _ _)).2 ⟨shapes, h5, h6⟩

/-- C94: the background of a plot. -/
theorem C94_background (P : PlotEnv φ) (s s' : PlotState φ) (args : List Expr) :
    backgroundCmd P args s = (s', none) ↔ ∃ c shapes, backgroundConfigure P s args = .ok c ∧
      Shape c.stroke c.fill (area s.clip) shapes ∧ s' = { s with layer := draw s.layer shapes } := by
  have e : pathAddRect [] s.clip = area s.clip := by
    simp [pathAddRect, area, ring, polyline, at_]
  unfold backgroundCmd
  rw [withConfig_iff, e]
  constructor
  · rintro ⟨c, hc, h⟩
    obtain ⟨shapes, h5, h6⟩ := (drawOn_iff (drawsA_path c.stroke c.fill false (area s.clip))).1 h
    exact ⟨c, shapes, hc, h5, h6⟩
  · rintro ⟨c, shapes, hc, h5, h6⟩
    exact ⟨c, hc, (drawOn_iff (drawsA_path c.stroke c.fill false (area s.clip))).2 ⟨shapes, h5, h6⟩⟩

end
end Clip
