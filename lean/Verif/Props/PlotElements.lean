import Verif.Props.Plots
import Mathlib.Tactic.FieldSimp
import Mathlib.Tactic.Ring
import Mathlib.Tactic.NormNum
/-!
# Property C63: all plot elements put data at the same place, C65: per point styles
-/
set_option linter.unusedSimpArgs false
namespace Clip
noncomputable section
open PlotSpec DataSpec ScaleSpec

variable {M K : Type}

/-- C65: lists of styles are repeated: entry `i` is entry `i mod n` of the list, and the default without a list. -/
theorem C65_cycle {α : Type} (dflt : α) (l : List α) :
    (l = [] → ∀ i, cycleOr dflt l i = dflt) ∧
    (∀ i (h : i < l.length), cycleOr dflt l i = l[i]) ∧
    (∀ i, cycleOr dflt l (i + l.length) = cycleOr dflt l i) ∧
    (l ≠ [] → ∀ i, cycleOr dflt l i ∈ l) := by
  refine ⟨?_, ?_, ?_, ?_⟩
  · rintro rfl i; simp [cycleOr]
  · intro i h
    have : l.length ≠ 0 := by omega
    simp [cycleOr, this, Nat.mod_eq_of_lt h]
  · intro i
    unfold cycleOr
    split
    · rfl
    · simp
  · intro h i
    have : l.length ≠ 0 := by rwa [Ne, List.length_eq_zero_iff]
    simp only [cycleOr, this, dif_neg, not_false_eq_true]
    exact List.getElem_mem _

example : (List.range 5).map (cycleOr 'x' ['a', 'b']) = ['a', 'b', 'a', 'b', 'a'] := by decide

/-- A loop over the indexes of two equally long series. -/
theorem loop2 {β : Type} (xs ys : List ℝ) (hl : xs.length = ys.length) (f : Nat → ℝ → ℝ → β) :
    ((List.range xs.length).mapM fun i => (do
      let x ← xs[i]?
      let y ← ys[i]?
      return f i x y : Option β)) = some ((xs.zip ys).mapIdx fun i p => f i p.1 p.2) := by
  rw [mapM_some_of _ (fun i => f i (xs.getD i 0) (ys.getD i 0))]
  · congr 1
    apply List.ext_getElem
    · simp [hl]
    · intro i h1 h2
      simp at h1 h2
      simp [h1, h2]
  · intro i hi
    simp at hi
    have h4 : i < ys.length := by omega
    simp [hi, h4]

/-- A loop over labels, with the points beside them. -/
theorem loopLabels {β : Type} (labels : List Str) (xs ys : List ℝ) (hl : xs.length = ys.length)
    (hlab : labels.length ≤ xs.length) (f : Nat → Str → ℝ → ℝ → β) :
    ((List.range labels.length).mapM fun i => (do
      let t ← labels[i]?
      let x ← xs[i]?
      let y ← ys[i]?
      return f i t x y : Option β)) = some ((labels.zip (xs.zip ys)).mapIdx fun i q => f i q.1 q.2.1 q.2.2) := by
  rw [mapM_some_of _ (fun i => f i (labels.getD i []) (xs.getD i 0) (ys.getD i 0))]
  · congr 1
    apply List.ext_getElem
    · simp [← hl]; omega
    · intro i h1 h2
      simp at h1
      have h5 : i < xs.length := by omega
      have h6 : i < ys.length := by omega
      simp [h1, h5, h6]
  · intro i hi
    simp at hi
    have h5 : i < xs.length := by omega
    have h6 : i < ys.length := by omega
    simp [hi, h5, h6]

/-- C63, C65: a point plot draws one marker per data point, at its place in the plot area, with the `i`-th (mod n)
shape, size and colour; then the labels, horizontally at their points. -/
theorem C63_points_partial (clip : Rect) (c : PointsConfig M K) (xs ys : List ℝ) (hl : xs.length = ys.length)
    (hlab : c.labels.length ≤ xs.length) :
    pointsDraw clip c xs ys = some (
      ((xs.zip ys).mapIdx fun i p => .marker (cycleOr c.shape c.shapes i) (at_ clip p.1 p.2)
        (cycleOr c.size c.sizes i) (cycleOr c.color c.colors i)) ++
      ((c.labels.zip (xs.zip ys)).mapIdx fun i q => .text q.1 ⟨(at_ clip q.2.1 q.2.2).x,
        (at_ clip q.2.1 q.2.2).y + (cycleOr 0 c.sizes i * 0.5 +
          (if c.labelPadding ≠ 0 then c.labelPadding else c.labelFontSize * 0.2))⟩ .center .bottom)) := by
  unfold pointsDraw
  rw [loop2 xs ys hl fun i x y => PlotOp.marker (cycleOr c.shape c.shapes i) ⟨clip.x + x * clip.w, clip.y + y * clip.h⟩
      (cycleOr c.size c.sizes i) (cycleOr c.color c.colors i)]
  rw [loopLabels c.labels xs ys hl hlab fun i t x y => PlotOp.text t ⟨clip.x + x * clip.w, clip.y + y * clip.h +
    (cycleOr 0 c.sizes i * 0.5 + (if c.labelPadding ≠ 0 then c.labelPadding else c.labelFontSize * 0.2))⟩
      .center .bottom]
  simp [at_]

example : ∃ r, pointsDraw (M := Unit) (K := Unit) ⟨0, 0, 10, 10⟩ ⟨(), [], 1, [], (), [], [], 0, 1⟩ [0.5] [0.25] = some r :=
  ⟨_, C63_points_partial _ _ _ _ rfl (by simp)⟩

/-- `std::clamp` to the unit interval. -/
theorem clamp01_mem (v : ℝ) : 0 ≤ clamp01 v ∧ clamp01 v ≤ 1 ∧ (0 ≤ v → v ≤ 1 → clamp01 v = v) := by
  unfold clamp01
  split
  · refine ⟨by norm_num, by norm_num, fun h _ => by linarith⟩
  · split
    · refine ⟨by norm_num, by norm_num, fun _ h => by linarith⟩
    · refine ⟨by linarith, by linarith, fun _ _ => rfl⟩

/-- C63: a vertical bar without data for its lower end is a closed box of its width, horizontally centred at the
x position plus offset, from the position of zero (moved into the plot area if outside) to the position of the
value. -/
theorem C63_bars_vertical (clip : Rect) (c : BarsConfig) (xs ys : List ℝ) (zero : ℝ) (hl : xs.length = ys.length) :
    barsVertical (M := M) (K := K) clip c xs ys [] zero = some ((xs.zip ys).mapIdx fun i p => .path (ring (vbar
      ((at_ clip p.1 p.2).x + cycleOr c.offset c.offsets i) (cycleOr c.size c.sizes i)
      (at_ clip p.1 (clamp01 zero)).y (at_ clip p.1 p.2).y))) := by
  unfold barsVertical
  simp only [List.isEmpty_nil, if_true, Option.bind_eq_bind, Option.bind_some]
  have := loop2 xs ys hl fun i x y => (PlotOp.path (ring (vbar
      ((at_ clip x y).x + cycleOr c.offset c.offsets i) (cycleOr c.size c.sizes i)
      (at_ clip x (clamp01 zero)).y (at_ clip x y).y)) : PlotOp M K)
  rw [← this]
  congr 1
  funext i
  cases xs[i]? <;> simp
  cases ys[i]? <;> simp
  simp [ring, polyline, vbar, at_]
  ring_nf

/-- C63: the same with data for the lower ends. -/
theorem C63_bars_vertical_offsets (clip : Rect) (c : BarsConfig) (xs ys lows : List ℝ) (zero : ℝ)
    (hl : xs.length = ys.length) (hlow : lows.length = ys.length) (hne : lows ≠ []) :
    barsVertical (M := M) (K := K) clip c xs ys lows zero =
      some ((xs.zip (ys.zip lows)).mapIdx fun i p => .path (ring (vbar
        ((at_ clip p.1 p.2.1).x + cycleOr c.offset c.offsets i) (cycleOr c.size c.sizes i)
        (at_ clip p.1 p.2.2).y (at_ clip p.1 p.2.1).y))) := by
  unfold barsVertical
  have he : lows.isEmpty = false := by cases lows <;> simp_all
  simp only [he, Bool.false_eq_true, if_false]
  rw [mapM_some_of _ (fun i => (PlotOp.path (ring (vbar
        ((at_ clip (xs.getD i 0) (ys.getD i 0)).x + cycleOr c.offset c.offsets i) (cycleOr c.size c.sizes i)
        (at_ clip (xs.getD i 0) (lows.getD i 0)).y (at_ clip (xs.getD i 0) (ys.getD i 0)).y)) : PlotOp M K))]
  · congr 1
    apply List.ext_getElem
    · simp [hl, hlow]
    · intro i h1 h2
      simp at h1 h2
      simp [h1, h2]
  · intro i hi
    simp at hi
    have h3 : i < ys.length := by omega
    have h4 : i < lows.length := by omega
    simp [hi, h3, h4, ring, polyline, vbar, at_]
    ring_nf

/-- The box of a horizontal bar: the transposed vertical bar. -/
def hbar (c width base v : ℝ) : List Vec2 := (vbar c width base v).map fun p => ⟨p.y, p.x⟩

/-- C63: horizontal bars are boxes centred at the y position minus the offset, from the position of zero to the
position of the value. -/
theorem C63_bars_horizontal (clip : Rect) (c : BarsConfig) (xs ys : List ℝ) (zero : ℝ) (hl : xs.length = ys.length) :
    barsHorizontal (M := M) (K := K) clip c xs ys [] zero = some ((xs.zip ys).mapIdx fun i p => .path (ring (hbar
      ((at_ clip p.1 p.2).y - cycleOr c.offset c.offsets i) (cycleOr c.size c.sizes i)
      (at_ clip (clamp01 zero) p.2).x (at_ clip p.1 p.2).x))) := by
  unfold barsHorizontal
  simp only [List.isEmpty_nil, if_true, Option.bind_eq_bind, Option.bind_some]
  have := loop2 xs ys hl fun i x y => (PlotOp.path (ring (hbar
      ((at_ clip x y).y - cycleOr c.offset c.offsets i) (cycleOr c.size c.sizes i)
      (at_ clip (clamp01 zero) y).x (at_ clip x y).x)) : PlotOp M K)
  rw [← this]
  congr 1
  funext i
  cases xs[i]? <;> simp
  cases ys[i]? <;> simp
  simp [ring, polyline, hbar, vbar, at_]
  constructor <;> ring

example : barsVertical (M := Unit) (K := Unit) ⟨0, 0, 10, 10⟩ ⟨2, [], 0, [], [], 0⟩ [0.5] [1] [] (-3) =
    some [.path [.moveTo 4 0, .lineTo 4 10, .lineTo 6 10, .lineTo 6 0, .close]] := by
  rw [C63_bars_vertical _ _ _ _ _ (by simp)]
  simp [ring, polyline, vbar, at_, cycleOr, clamp01]
  norm_num

/-- C63: an area is the closed shape through the data points and back along the base line; the same points, open,
are the upper and the lower line. -/
theorem C63_areas (vertical : Bool) (clip : Rect) (xs ys : List ℝ) (zero : ℝ) (hl : xs.length = ys.length)
    (hne : xs ≠ []) :
    let high := (xs.zip ys).map fun p => at_ clip p.1 p.2
    let low := (xs.zip ys).reverse.map fun p =>
      if vertical then at_ clip p.1 (clamp01 zero) else at_ clip (clamp01 zero) p.2
    areasDraw (M := M) (K := K) vertical clip xs ys [] zero =
      some [.path (ring (high ++ low)), .path (polyline high), .path (polyline low)] := by
  intro high low
  have h1 : areaHigh clip xs ys = some (polyline high) := by
    unfold areaHigh
    rw [loop2 xs ys hl fun i x y => if i = 0 then PathCmd.moveTo (clip.x + x * clip.w) (clip.y + y * clip.h)
      else .lineTo (clip.x + x * clip.w) (clip.y + y * clip.h), ← polyline_mapIdx]
    congr 1
    apply List.ext_getElem
    · simp [high]
    · intro i h1 h2
      simp [high, at_]
  have h2 : areaLow vertical clip xs ys [] zero = some low := by
    unfold areaLow
    rw [mapM_some_of _ (fun i => if vertical then at_ clip (xs.getD i 0) (clamp01 zero)
      else at_ clip (clamp01 zero) (ys.getD i 0))]
    · congr 1
      simp only [low]
      rw [List.map_reverse, List.map_reverse]
      congr 1
      apply List.ext_getElem
      · simp [hl]
      · intro i h1 h2
        simp at h1 h2
        simp [h1, h2]
    · intro i hi
      simp at hi
      have h4 : i < ys.length := by omega
      cases vertical <;> simp [hi, h4, at_]
  have h3 : ∀ vs, pathAddPolyLine [] vs = polyline vs := by
    intro vs
    cases vs <;> simp [pathAddPolyLine, polyline, lineTos]
  have h4 : ring (high ++ low) = polyline high ++ lineTos low ++ [.close] := by
    have : high ≠ [] := by
      cases xs with
      | nil => exact absurd rfl hne
      | cons x xs => cases ys <;> simp_all [high]
    cases hh : high with
    | nil => exact absurd hh this
    | cons v vs => simp [ring, polyline, lineTos]
  simp only [areasDraw, h1, h2, h3, h4, Option.bind_eq_bind, Option.bind_some]
  rfl

example : ∃ r, areasDraw (M := Unit) (K := Unit) true ⟨0, 0, 10, 10⟩ [0, 1] [0.5, 1] [] 0 = some r :=
  ⟨_, C63_areas true _ _ _ 0 rfl (by simp)⟩

/-- C63: a vertical errorbar spans from the position of its low value to the position of its high value. -/
theorem C63_errorbars_vertical_partial (clip : Rect) (x lo hi : List ℝ) :
    errorbarsDraw clip x [] [] [] lo hi =
      List.zipWith3 (fun x l h => (at_ clip x l, at_ clip x h)) x lo hi := by
  simp only [errorbarsDraw, List.zipWith3, List.append_nil]
  rfl

/-- C63 (violated by the code): the right end of a horizontal errorbar is at its data position only if the plot
area has the same distance from the left as from the bottom; otherwise the bar is slanted. -/
theorem C63_errorbars_horizontal_slanted (clip : Rect) (y lo hi : ℝ) :
    (errorbarHorizontal clip y lo hi).1 = at_ clip lo y ∧
    ((errorbarHorizontal clip y lo hi).2 = at_ clip hi y ↔ clip.x = clip.y) ∧
    ((errorbarHorizontal clip y lo hi).1.y = (errorbarHorizontal clip y lo hi).2.y ↔ clip.x = clip.y) := by
  refine ⟨rfl, ?_, ?_⟩
  · simp [errorbarHorizontal, at_]
  · simp [errorbarHorizontal, eq_comm]

example : (errorbarHorizontal ⟨40, 10, 100, 100⟩ 0.5 0 1).2 = ⟨140, 90⟩ := by
  norm_num [errorbarHorizontal]

/-- C63: an errorbar consists of the line between its ends and, at each end, a cap of the given width, centred at
the end and perpendicular to the line. -/
theorem C63_errorbar_caps (w : ℝ) (p q : Vec2) (hne : p ≠ q) :
    ∃ o : Vec2, o.x ^ 2 + o.y ^ 2 = 1 ∧ o.x * (q.x - p.x) + o.y * (q.y - p.y) = 0 ∧
      errorbarBar w p q = some [polyline [p, q],
        polyline [⟨p.x - w / 2 * o.x, p.y - w / 2 * o.y⟩, ⟨p.x + w / 2 * o.x, p.y + w / 2 * o.y⟩],
        polyline [⟨q.x - w / 2 * o.x, q.y - w / 2 * o.y⟩, ⟨q.x + w / 2 * o.x, q.y + w / 2 * o.y⟩]] := by
  have hpos : 0 < (q.x - p.x) * (q.x - p.x) + (q.y - p.y) * (q.y - p.y) := by
    by_contra hcon
    have h1 : q.x - p.x = 0 := by nlinarith [mul_self_nonneg (q.x - p.x), mul_self_nonneg (q.y - p.y)]
    have h2 : q.y - p.y = 0 := by nlinarith [mul_self_nonneg (q.x - p.x), mul_self_nonneg (q.y - p.y)]
    apply hne
    ext <;> linarith
  have hm : (q.sub p).magnitude ≠ 0 := by
    simp only [Vec2.magnitude, Vec2.sub]
    exact (Real.sqrt_pos.2 hpos).ne'
  have hsq : (q.sub p).magnitude * (q.sub p).magnitude =
      (q.x - p.x) * (q.x - p.x) + (q.y - p.y) * (q.y - p.y) := by
    simp only [Vec2.magnitude, Vec2.sub]
    exact Real.mul_self_sqrt hpos.le
  generalize hM : (q.sub p).magnitude = m at hm hsq
  refine ⟨⟨(q.y - p.y) / m, -((q.x - p.x) / m)⟩, ?_, ?_, ?_⟩
  · simp only
    rw [neg_sq, div_pow, div_pow, ← add_div, div_eq_one_iff_eq (by positivity)]
    linarith
  · simp only
    ring
  · simp only [errorbarBar, Vec2.normalize, hM, hm, if_false, Option.bind_eq_bind, Option.bind_some]
    simp [pathAddLine, polyline, Vec2.add, Vec2.scale, Vec2.sub]
    refine ⟨⟨⟨?_, ?_⟩, ?_, ?_⟩, ⟨?_, ?_⟩, ?_, ?_⟩ <;> ring

example : (⟨0, 0⟩ : Vec2) ≠ ⟨0, 5⟩ := by simp

/-- C63 (violated by the code): an errorbar of length zero has no caps: all their coordinates are NaN. -/
theorem C63_errorbar_degenerate (w : ℝ) (p : Vec2) : errorbarBar w p p = none := by
  simp [errorbarBar, Vec2.normalize, Vec2.magnitude, Vec2.sub]

/-- C63: rectangles are centred at the position of their data point. -/
theorem C63_rectangles (clip : Rect) (c : RectanglesConfig) (xs ys sx sy : List ℝ) (hl : xs.length = ys.length) :
    rectanglesDraw (M := M) (K := K) clip c xs ys sx sy = some ((xs.zip ys).mapIdx fun i p =>
      let w := cycleOr c.sizeX (sx.map (· * clip.w)) i
      let h := cycleOr c.sizeY (sy.map (· * clip.h)) i
      let o := at_ clip p.1 p.2
      .path (ring [⟨o.x + w / 2, o.y + h / 2⟩, ⟨o.x + w / 2, o.y - h / 2⟩, ⟨o.x - w / 2, o.y - h / 2⟩,
        ⟨o.x - w / 2, o.y + h / 2⟩])) := by
  unfold rectanglesDraw
  rw [loop2 xs ys hl fun i x y => PlotOp.path (pathAddRectCentered [] ⟨clip.x + clip.w * x, clip.y + clip.h * y⟩
    ⟨cycleOr c.sizeX (sx.map (· * clip.w)) i, cycleOr c.sizeY (sy.map (· * clip.h)) i⟩)]
  congr 1
  simp [pathAddRectCentered, ring, polyline, at_, mul_comm]

/-- C63: if every point has a direction, vectors start at the position of their data point and end at the position
moved by the translated direction. -/
theorem C63_vectors_partial (clip : Rect) (shape : M) (shapes : List M) (size : ℝ) (sizes : List ℝ) (color : K)
    (colors : List K) (xs ys dx dy : List ℝ) (hl : xs.length = ys.length) (hx : xs.length ≤ dx.length)
    (hy : xs.length ≤ dy.length) :
    vectorsDraw clip shape shapes size sizes color colors xs ys dx dy =
      some (((xs.zip ys).zip (dx.zip dy)).mapIdx fun i p => .arrow (cycleOr shape shapes i) (at_ clip p.1.1 p.1.2)
        (at_ clip (p.1.1 + p.2.1) (p.1.2 + p.2.2)) (cycleOr size sizes i) (cycleOr color colors i)) := by
  unfold vectorsDraw
  rw [mapM_some_of _ (fun i => PlotOp.arrow (cycleOr shape shapes i) (at_ clip (xs.getD i 0) (ys.getD i 0))
        (at_ clip (xs.getD i 0 + dx.getD i 0) (ys.getD i 0 + dy.getD i 0)) (cycleOr size sizes i)
        (cycleOr color colors i))]
  · congr 1
    apply List.ext_getElem
    · simp [hl]; omega
    · intro i h1 h2
      simp at h1 h2
      have h3 : i < dx.length := by omega
      have h4 : i < dy.length := by omega
      simp [h1, h2, h3, h4]
  · intro i hi
    simp at hi
    have h3 : i < ys.length := by omega
    have h4 : i < dx.length := by omega
    have h5 : i < dy.length := by omega
    simp [hi, h3, h4, h5, at_]
    refine ⟨⟨?_, ?_⟩, ?_, ?_⟩ <;> ring

/-- C63 (violated by the code): the directions are not checked; a point without one is an access outside the
data. -/
theorem C63_vectors_missing_direction (clip : Rect) (shape : M) (shapes : List M) (size : ℝ) (sizes : List ℝ)
    (color : K) (colors : List K) (xs ys dx dy : List ℝ) (h : dx.length < xs.length) :
    vectorsDraw clip shape shapes size sizes color colors xs ys dx dy = none := by
  unfold vectorsDraw
  apply mapM_none_of _ _ dx.length (by simpa using h)
  cases xs[dx.length]? <;> simp

theorem clamp01_eq (v : ℝ) : clamp01 v = max 0 (min 1 v) := by
  unfold clamp01
  split
  · rw [max_eq_left]
    exact (min_le_right _ _).trans (le_of_lt ‹_›)
  · split
    · rw [min_eq_left (le_of_lt ‹_›)]; simp
    · rw [min_eq_right (not_lt.1 ‹_›), max_eq_right (not_lt.1 ‹_›)]

/-- C63: the boundary of a polygon goes through the positions of its vertices, moved into the plot area if they
are outside. -/
theorem C63_polygons_partial (clip : Rect) (fx fy : ℝ → ℝ) (vs : List Vec2) (hne : vs ≠ []) :
    polygonPath clip fx fy ⟨vs, []⟩ = ring (vs.map fun v => at_ clip (max 0 (min 1 (fx v.x))) (max 0 (min 1 (fy v.y)))) := by
  simp only [← clamp01_eq]
  cases vs with
  | nil => exact absurd rfl hne
  | cons v vs =>
    simp [polygonPath, pathFromPoly2, pathAddPolyRing, lineTos, ring, polyline, at_, add_comm]

/-- C63 (violated by the code): holes of polygons are not scaled at all: whatever the scales and the plot area, the
path contains the hole in data coordinates. -/
theorem C63_polygon_holes_unscaled (clip : Rect) (fx fy : ℝ → ℝ) (vs : List Vec2) (h : List Vec2) (hne : h ≠ []) :
    ∃ p, polygonPath clip fx fy ⟨vs, [h]⟩ = p ++ ring h := by
  cases h with
  | nil => exact absurd rfl hne
  | cons v h =>
    exact ⟨_, by simp [polygonPath, pathFromPoly2, pathAddPolyRing, lineTos, ring, polyline]; rfl⟩

/-- C63: grid lines of the x axis pass through the positions of their ticks, over the full height. -/
theorem C63_grid_x (clip : Rect) (ts : List ℝ) :
    gridDraw (M := M) (K := K) clip ts [] = ts.map fun t => .path (polyline [at_ clip t 0, at_ clip t 1]) := by
  simp [gridDraw, pathAddLine, polyline, at_, mul_comm]

/-- C63 (violated by the code): grid lines of the y axis are mirrored: the line of the tick at `t` passes through
the position of `1 - t`, which is its own position only in the middle (or if the plot has no height). -/
theorem C63_grid_y_mirrored (clip : Rect) (t : ℝ) :
    gridDraw (M := M) (K := K) clip [] [t] = [.path (polyline [at_ clip 0 (1 - t), at_ clip 1 (1 - t)])] ∧
    (clip.h ≠ 0 → (at_ clip 0 (1 - t) = at_ clip 0 t ↔ t = 1 / 2)) := by
  constructor
  · simp [gridDraw, pathAddLine, polyline, at_, mul_comm]
  · intro hh
    simp only [at_, Vec2.mk.injEq, add_right_inj, mul_eq_mul_right_iff, hh, or_false, true_and, or_self]
    constructor <;> intro h <;> linarith

/-- C63 (violated by the code): the labels element mirrors its points: the label of the point `(x, y)` is placed
(apart from the padding) at the position of `(x, 1 - y)`. -/
theorem C63_labels_mirrored (clip : Rect) (pad : ℝ) (labels : List Str) (xs ys : List ℝ) (hl : xs.length = ys.length)
    (hlab : labels.length ≤ xs.length) :
    labelsDraw (M := M) (K := K) clip pad labels xs ys = some ((labels.zip (xs.zip ys)).map fun q =>
      .text q.1 ⟨(at_ clip q.2.1 (1 - q.2.2)).x, (at_ clip q.2.1 (1 - q.2.2)).y - pad⟩ .center .bottom) := by
  unfold labelsDraw
  rw [loopLabels labels xs ys hl hlab fun _ t x y =>
    PlotOp.text t ⟨clip.x + x * clip.w, clip.y + (1 - y) * clip.h - pad⟩ .center .bottom]
  congr 1
  apply List.ext_getElem
  · simp
  · intro i h1 h2
    simp [at_]

example : labelsDraw (M := Unit) (K := Unit) ⟨0, 0, 10, 10⟩ 0 [['a']] [0] [0] = some [.text ['a'] ⟨0, 10⟩ .center .bottom] := by
  rw [C63_labels_mirrored _ _ _ _ _ rfl (by simp)]
  simp [at_]

/-- C63: the shaft of an arrow goes from start to end; the head is a triangle over the end, symmetric to the
shaft, with its tip in the direction of the arrow. -/
theorem C63_arrow (p q : Vec2) (size : ℝ) (hne : p ≠ q) :
    ∃ d : Vec2, d.x ^ 2 + d.y ^ 2 = 1 ∧ (∃ m > 0, q.x - p.x = m * d.x ∧ q.y - p.y = m * d.y) ∧
      arrowDefault p q size = some [polyline [p, q],
        ring [⟨q.x + 2 * size * d.y, q.y - 2 * size * d.x⟩, ⟨q.x - 2 * size * d.y, q.y + 2 * size * d.x⟩,
          ⟨q.x + 4 * size * d.x, q.y + 4 * size * d.y⟩]] := by
  have hpos : 0 < (q.x - p.x) * (q.x - p.x) + (q.y - p.y) * (q.y - p.y) := by
    by_contra hcon
    have h1 : q.x - p.x = 0 := by nlinarith [mul_self_nonneg (q.x - p.x), mul_self_nonneg (q.y - p.y)]
    have h2 : q.y - p.y = 0 := by nlinarith [mul_self_nonneg (q.x - p.x), mul_self_nonneg (q.y - p.y)]
    apply hne
    ext <;> linarith
  have hm : 0 < (q.sub p).magnitude := by
    simp only [Vec2.magnitude, Vec2.sub]
    exact Real.sqrt_pos.2 hpos
  have hsq : (q.sub p).magnitude * (q.sub p).magnitude =
      (q.x - p.x) * (q.x - p.x) + (q.y - p.y) * (q.y - p.y) := by
    simp only [Vec2.magnitude, Vec2.sub]
    exact Real.mul_self_sqrt hpos.le
  generalize hM : (q.sub p).magnitude = m at hm hsq
  have hm0 := hm.ne'
  refine ⟨⟨(q.x - p.x) / m, (q.y - p.y) / m⟩, ?_, ⟨m, hm, ?_, ?_⟩, ?_⟩
  · simp only
    rw [div_pow, div_pow, ← add_div, div_eq_one_iff_eq (by positivity)]
    linarith
  · field_simp
  · field_simp
  · simp only [arrowDefault, Vec2.normalize, hM, hm0, if_false, Option.bind_eq_bind, Option.bind_some]
    simp [pathAddLine, polyline, ring, Vec2.add, Vec2.scale, Vec2.sub]
    refine ⟨⟨?_, ?_⟩, ⟨?_, ?_⟩, ?_, ?_⟩ <;> ring

/-- C63: the label of a bar is beside its end: above it (right of it for horizontal bars) by the padding, in the middle
of the bar. -/
theorem C63_bar_labels_partial (vertical : Bool) (clip : Rect) (c : BarsConfig) (xs ys : List ℝ) (hl : xs.length = ys.length)
    (hlab : c.labels.length ≤ xs.length) :
    barsLabels (M := M) (K := K) vertical clip c xs ys = some ((c.labels.zip (xs.zip ys)).mapIdx fun i q =>
      let o := at_ clip q.2.1 q.2.2
      if vertical then .text q.1 ⟨o.x + cycleOr c.offset c.offsets i, o.y + c.labelPadding⟩ .center .bottom
      else .text q.1 ⟨o.x + c.labelPadding, o.y - cycleOr c.offset c.offsets i⟩ .left .center) := by
  unfold barsLabels
  rw [loopLabels c.labels xs ys hl hlab fun i t x y => if vertical then
      PlotOp.text t ⟨clip.x + cycleOr c.offset c.offsets i + x * clip.w, clip.y + y * clip.h + c.labelPadding⟩ .center .bottom
    else PlotOp.text t ⟨clip.x + x * clip.w + c.labelPadding, clip.y + -cycleOr c.offset c.offsets i + y * clip.h⟩ .left .center]
  congr 1
  apply List.ext_getElem
  · simp
  · intro i h1 h2
    simp only [List.getElem_mapIdx, at_]
    cases vertical
    · simp only [Bool.false_eq_true, if_false]
      congr 2
      ring
    · simp only [if_true]
      congr 2
      ring

/-- C63: on a linear scale that is not inverted a length in data units is drawn as long as the distance of two data values
which differ by it. -/
theorem C63_lengths_partial (s : Scale) (hk : s.kind = .linear) (hi : s.inverted = false)
    (hne : scaleMin .exact s ≠ scaleMax .exact s) (v d : ℝ) :
    ∃ p m, scaleTranslate .exact s v = some p ∧ translateMagnitude .exact s d = some m ∧
      scaleTranslate .exact s (v + d) = some (p + m) := by
  have h0 : scaleMax .exact s - scaleMin .exact s ≠ 0 := fun h => hne (by linarith)
  have hd : ∀ x, Arith.exact.d x = x := fun _ => rfl
  simp only [scaleTranslate, translateMagnitude, hk, translateLinear, hd, hi, Bool.false_eq_true, if_false]
  rw [if_neg h0, if_neg h0, if_neg h0]
  refine ⟨_, _, rfl, rfl, ?_⟩
  congr 1
  field_simp
  ring

example : scaleMin .exact ({ min := some 2, max := some 6 } : Scale) ≠
    scaleMax .exact ({ min := some 2, max := some 6 } : Scale) := by norm_num [scaleMin, scaleMax]

/-- C63 (violated by the code): on an inverted scale a vector points into the opposite direction. -/
theorem C63_lengths_inverted (s : Scale) (hk : s.kind = .linear) (hi : s.inverted = true)
    (hne : scaleMin .exact s ≠ scaleMax .exact s) (v d : ℝ) :
    ∃ p m, scaleTranslate .exact s v = some p ∧ translateMagnitude .exact s d = some m ∧
      scaleTranslate .exact s (v + d) = some (p - m) := by
  have h0 : scaleMax .exact s - scaleMin .exact s ≠ 0 := fun h => hne (by linarith)
  have hd : ∀ x, Arith.exact.d x = x := fun _ => rfl
  simp only [scaleTranslate, translateMagnitude, hk, translateLinear, hd, hi, if_true]
  rw [if_neg h0, if_neg h0, if_neg h0]
  refine ⟨_, _, rfl, rfl, ?_⟩
  congr 1
  field_simp
  ring

/-- C63: elements are drawn in the innermost area laid out, which is the page without the margins if none is. -/
theorem C63_plot_area (stack : List Rect) (r : Rect) (w h top right bottom left : ℝ) :
    plotGetClip (stack ++ [r]) w h (top, right, bottom, left) = r ∧
    (left + right ≤ w → top + bottom ≤ h →
      plotGetClip [] w h (top, right, bottom, left) = ⟨left, bottom, w - left - right, h - top - bottom⟩) := by
  refine ⟨by simp [plotGetClip], fun h1 h2 => ?_⟩
  simp only [plotGetClip, List.getLast?_nil, layoutMarginBox, zero_add]
  rw [max_eq_left (by linarith), max_eq_left (by linarith)]
  congr 1 <;> ring

end
end Clip
