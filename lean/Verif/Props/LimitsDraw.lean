import Verif.Props.Limits
set_option linter.unusedSimpArgs false
set_option linter.unusedVariables false
/-!
# C89: what is drawn inside the plot area
-/
namespace Clip
open Settings Pictures Options Limits
noncomputable section
variable {φ : Type}

/-- All positions are between 0 and 1. -/
def Unit01 (l : List ℝ) : Prop := ∀ p ∈ l, 0 ≤ p ∧ p ≤ 1

/-- C89: without scale settings, in the plot or in the element, every element that shows data gets positions between 0 and 1
for all its data. -/
theorem C89_automatic (P : PlotEnv φ) (cmds : List Expr) (L : Layer φ) (hp : L.palette ≠ []) (s : PlotState φ)
    (hprep : plotPrepare P cmds { layer := L } = (s, none)) (hw : Without scaleNames cmds)
    (pre post : List Expr) (e : Expr) (hc : cmds = pre ++ e :: post) (hwe : Without scaleNames (argsOf e))
    (t : PlotState φ) (ht : plotDraw P pre s = (t, none))
    (n : String) (hn : nameOf e = some n.toList) (xs ys : List (DataBuffer (Option ℝ))) (sc : Scales)
    (hsh : Shows P t (argsOf e) n xs ys sc) :
    (∀ b ∈ xs, ∀ ps, translateBuf P sc.x b = .ok ps → ∀ p ∈ ps, 0 ≤ p ∧ p ≤ 1) ∧
    (∀ b ∈ ys, ∀ ps, translateBuf P sc.y b = .ok ps → ∀ p ∈ ps, 0 ≤ p ∧ p ≤ 1) := by
  have hw2 : Without ["scale-x", "scale-y"] cmds := fun e he n hn => hw e he n (by
    simp only [List.mem_cons, List.not_mem_nil, or_false] at hn
    rcases hn with rfl | rfl <;> decide)
  obtain ⟨-, -, h1, h2⟩ := C89_inside P cmds L hp s hprep hw2 pre post e hc t ht n hn xs ys sc hsh
  obtain ⟨hsc, hon⟩ := C89_same_limits P cmds L hp s hprep hw2 pre (by rw [hc]; simp +contextual)
  rw [ht] at hsc hon
  simp only at hsc hon
  have hpt : (t.env P).palette ≠ [] := by rw [on_env hon]; exact hp
  obtain ⟨ax, ay⟩ := shows_scales hpt hsh
  have hx : sc.x = s.scales.x := by
    rw [← hsc]
    refine acts_skip (fun c hcm p hpm hne => ?_) ax
    simp only [scaleX, List.mem_cons, List.not_mem_nil, or_false] at hpm
    rcases hpm with rfl | rfl | rfl | rfl | rfl <;> exact hwe c hcm _ (by dsimp only; decide) hne
  have hy : sc.y = s.scales.y := by
    rw [← hsc]
    refine acts_skip (fun c hcm p hpm hne => ?_) ay
    simp only [scaleY, List.mem_cons, List.not_mem_nil, or_false] at hpm
    rcases hpm with rfl | rfl | rfl | rfl | rfl <;> exact hwe c hcm _ (by dsimp only; decide) hne
  unfold plotPrepare at hprep
  obtain ⟨-, hex⟩ := (walkSkip_ok _ _ _ _).1 hprep
  obtain ⟨p1, p2⟩ := prepare_plain hex (fun e he => hw e (List.mem_filter.1 he).1) rfl rfl
  refine ⟨h1 ?_, h2 ?_⟩
  · rw [hx, p1]; exact ⟨rfl, rfl, rfl, le_refl _⟩
  · rw [hy, p2]; exact ⟨rfl, rfl, rfl, le_refl _⟩

theorem at_has {r : Rect} (hw : 0 ≤ r.w) (hh : 0 ≤ r.h) {x y : ℝ} (hx : 0 ≤ x ∧ x ≤ 1) (hy : 0 ≤ y ∧ y ≤ 1) :
    r.Has ⟨r.x + x * r.w, r.y + y * r.h⟩ := C42_inside r hw hh x y hx hy

theorem within_mapM {r : Rect} {α : Type} {l : List α} {f : α → Option PathCmd}
    (hf : ∀ a ∈ l, ∀ c, f a = some c → c = .close ∨ ∃ q : Vec2, r.Has q ∧ (c = .moveTo q.x q.y ∨ c = .lineTo q.x q.y)) :
    ∀ {p : Path}, l.mapM f = some p → Within r p := by
  induction l with
  | nil => intro p h; simp at h; subst h; intro c hc; simp at hc
  | cons a l ih =>
    intro p h
    simp only [List.mapM_cons, Option.bind_eq_bind, Option.bind_eq_some_iff] at h
    obtain ⟨c, hc, p', hp', h⟩ := h
    simp only [Option.pure_def, Option.some.injEq] at h
    subst h
    intro d hd
    rcases List.mem_cons.1 hd with rfl | hd
    · exact hf _ (.head _) _ hc
    · exact ih (fun a ha => hf a (.tail _ ha)) hp' d hd

theorem linesPath_within {r : Rect} (hw : 0 ≤ r.w) (hh : 0 ≤ r.h) {xs ys : List ℝ} (hx : Unit01 xs) (hy : Unit01 ys)
    {b e : Nat} {p : Path} (h : linesPath r xs ys b e = some p) : Within r p := by
  refine within_mapM (fun i _ c hc => ?_) h
  simp only [Option.bind_eq_bind, Option.bind_eq_some_iff] at hc
  obtain ⟨x, hxi, y, hyi, hc⟩ := hc
  simp only [Option.pure_def, Option.some.injEq] at hc
  refine .inr ⟨_, at_has hw hh (hx x (List.mem_of_getElem? hxi)) (hy y (List.mem_of_getElem? hyi)), ?_⟩
  subst hc
  split
  · exact .inl rfl
  · exact .inr rfl

theorem lines_within {r : Rect} (hw : 0 ≤ r.w) (hh : 0 ≤ r.h) {M K : Type} {c : LinesConfig M K} (hm : c.markerSize = 0)
    (hl : c.labels = []) {xs ys : List ℝ} (hx : Unit01 xs) (hy : Unit01 ys) {ops : List (PlotOp M K)}
    (h : linesDraw r c xs ys = some ops) : ∀ op ∈ ops, ∃ p, op = .path p ∧ Within r p := by
  unfold linesDraw at h
  simp only [hm, gt_iff_lt, lt_self_iff_false, if_false, hl, List.length_nil, List.range_zero, List.mapM_nil,
    Option.pure_def, Option.bind_eq_bind, Option.bind_some, List.append_nil] at h
  obtain ⟨ls, h1, h4⟩ := Option.bind_eq_some_iff.1 h
  simp only [Option.some.injEq] at h4
  subst h4
  have key : ∀ (l : List Nat) (ls : List (PlotOp M K)),
      (l.mapM fun n => ((linesPath r xs ys (lineRange c.groups xs ys n).1 (lineRange c.groups xs ys n).2).bind fun p =>
        some (PlotOp.path p) : Option (PlotOp M K))) = some ls → ∀ op ∈ ls, ∃ p, op = .path p ∧ Within r p := by
    intro l
    induction l with
    | nil => intro ls h op ho; simp at h; subst h; simp at ho
    | cons a l ih =>
      intro ls h op ho
      simp only [List.mapM_cons, Option.bind_eq_bind, Option.bind_eq_some_iff] at h
      obtain ⟨o, ⟨p, hp, ho'⟩, p', hp', h⟩ := h
      simp only [Option.pure_def, Option.some.injEq] at h ho'
      subst h; subst ho'
      rcases List.mem_cons.1 ho with rfl | ho
      · exact ⟨p, rfl, linesPath_within hw hh hx hy hp⟩
      · exact ih _ hp' _ ho
  exact key _ _ h1

theorem renderPaths {P : PlotEnv φ} {st : OpStyle φ} {R : Path → Prop} : ∀ {ops : List (PlotOp Marker Color)} {L : Layer φ},
    (∀ op ∈ ops, ∃ p, op = .path p ∧ R p) → ∃ shapes, renderOps P st ops L = (draw L shapes, none) ∧ ∀ c ∈ shapes, R c.path := by
  intro ops
  induction ops with
  | nil => intro L _; exact ⟨[], by simp [renderOps, tryChain, draw], by simp⟩
  | cons op ops ih =>
    intro L h
    obtain ⟨p, rfl, hp⟩ := h _ (.head _)
    obtain ⟨shapes, h1, h2⟩ := ih (L := renderPath st.stroke st.fill false p L) fun op ho => h op (.tail _ ho)
    refine ⟨⟨p, addStroke st.stroke.style (addFill st.fill Compound.none), false⟩ :: shapes, ?_, ?_⟩
    · simp only [renderOps, List.map_cons, tryChain, renderOp] at h1 ⊢
      rw [h1]
      simp [draw, renderPath, drawShape]
    · intro c hc
      rcases List.mem_cons.1 hc with rfl | hc
      · exact hp
      · exact h2 c hc

/-- C89: every line of a `lines` element (without markers and labels) is drawn inside the plot area. -/
theorem C89_lines (P : PlotEnv φ) (cmds : List Expr) (L : Layer φ) (hp : L.palette ≠ []) (s : PlotState φ)
    (hprep : plotPrepare P cmds { layer := L } = (s, none)) (hw : Without scaleNames cmds)
    (pre post : List Expr) (e : Expr) (hc : cmds = pre ++ e :: post)
    (hwe : Without (scaleNames ++ ["marker-size", "labels"]) (argsOf e))
    (t : PlotState φ) (ht : plotDraw P pre s = (t, none)) (hn : nameOf e = some "lines".toList)
    (hcw : 0 ≤ t.clip.w) (hch : 0 ≤ t.clip.h) (t' : PlotState φ) (hrun : linesCmd P (argsOf e) t = (t', none)) :
    ∃ shapes, t' = { t with layer := draw t.layer shapes } ∧ ∀ c ∈ shapes, Within t.clip c.path := by
  obtain ⟨hsc, hon⟩ := C89_same_limits P cmds L hp s hprep (fun e he n hn => hw e he n (by
    simp only [List.mem_cons, List.not_mem_nil, or_false] at hn
    rcases hn with rfl | rfl <;> decide)) pre (by rw [hc]; simp +contextual)
  rw [ht] at hsc hon
  simp only at hsc hon
  have hpt : (t.env P).palette ≠ [] := by rw [on_env hon]; exact hp
  unfold linesCmd withConfig at hrun
  cases hcf : linesConfigure P t (argsOf e) with
  | error f => rw [hcf] at hrun; simp at hrun
  | ok c =>
    rw [hcf] at hrun
    simp only at hrun
    obtain ⟨h1, h2⟩ := C89_automatic P cmds L hp s hprep hw pre post e hc (fun c hc n hn => hwe c hc n (by simp [hn])) t ht
      "lines" hn _ _ _ (.lines rfl hcf)
    obtain ⟨o, hm, x, y, g, u, hld, -, -, rfl⟩ := configured_ok (C90_lines P t hpt (argsOf e)) hcf
    have hms : o.markerSize = 0 := acts_skip (fun d hdm p hpm hne => hwe d hdm "marker-size" (by simp) (by
        simp only [List.map_cons, List.map_nil, List.mem_cons, List.not_mem_nil, or_false] at hpm
        subst hpm; exact hne)) hm.markerSize
    have hlb : o.labels = [] := acts_skip (fun d hdm p hpm hne => hwe d hdm "labels" (by simp) (by
        simp only [List.map_cons, List.map_nil, List.mem_cons, List.not_mem_nil, or_false] at hpm
        subst hpm; exact hne)) hm.labels
    unfold linesRender at hrun
    split at hrun
    · simp at hrun
    rename_i xs hxs
    split at hrun
    · simp at hrun
    rename_i ys hys
    cases hd : linesDraw t.clip ⟨g, o.markerSize, o.markerShape, o.markerColor, o.labels, o.labelPadding,
          o.labelFontSize⟩ xs ys with
    | none => simp only [hd, renderOps?, drawOn] at hrun; simp at hrun
    | some ops =>
      simp only [hd, renderOps?, drawOn] at hrun
      obtain ⟨shapes, e1, e2⟩ := renderPaths (P := P) (st := ⟨o.stroke, .default, o.labelFonts, o.labelFontSize, o.labelColor⟩)
        (L := t.layer) (lines_within hcw hch hms hlb (h1 _ (.head _) _ hxs) (h2 _ (.head _) _ hys) hd)
      rw [e1] at hrun
      simp only [Prod.mk.injEq, and_true] at hrun
      exact ⟨shapes, hrun.symm, e2⟩

theorem unit_clamp01 (v : ℝ) : 0 ≤ clamp01 v ∧ clamp01 v ≤ 1 := by
  unfold clamp01
  split
  · norm_num
  · split
    · norm_num
    · constructor <;> linarith

theorem areaHigh_within {r : Rect} (hw : 0 ≤ r.w) (hh : 0 ≤ r.h) {xs ys : List ℝ} (hx : Unit01 xs) (hy : Unit01 ys)
    {p : Path} (h : areaHigh r xs ys = some p) : Within r p := by
  refine within_mapM (fun i _ c hc => ?_) h
  simp only [Option.bind_eq_bind, Option.bind_eq_some_iff] at hc
  obtain ⟨x, hxi, y, hyi, hc⟩ := hc
  simp only [Option.pure_def, Option.some.injEq] at hc
  refine .inr ⟨_, at_has hw hh (hx x (List.mem_of_getElem? hxi)) (hy y (List.mem_of_getElem? hyi)), ?_⟩
  subst hc
  split
  · exact .inl rfl
  · exact .inr rfl

theorem areaLow_within {r : Rect} (hw : 0 ≤ r.w) (hh : 0 ≤ r.h) {v : Bool} {xs ys os : List ℝ} (hx : Unit01 xs)
    (hy : Unit01 ys) (ho : Unit01 os) {z : ℝ} {ps : List Vec2} (h : areaLow v r xs ys os z = some ps) : ∀ q ∈ ps, r.Has q := by
  unfold areaLow at h
  revert ps
  generalize (List.range xs.length).reverse = l
  induction l with
  | nil => intro ps h q hq; simp at h; subst h; simp at hq
  | cons a l ih =>
    intro ps h q hq
    simp only [List.mapM_cons, Option.bind_eq_bind, Option.bind_eq_some_iff] at h
    obtain ⟨c, ⟨x, hxi, y, hyi, hc⟩, p', hp', h⟩ := h
    simp only [Option.pure_def, Option.some.injEq] at h
    subst h
    have hx' := hx x (List.mem_of_getElem? hxi)
    have hy' := hy y (List.mem_of_getElem? hyi)
    have hb : ∃ b, (0 ≤ b ∧ b ≤ 1) ∧ c = if v then ⟨r.x + x * r.w, r.y + b * r.h⟩ else ⟨r.x + b * r.w, r.y + y * r.h⟩ := by
      split at hc
      · simp only [Option.bind_some, Option.pure_def, Option.some.injEq] at hc
        exact ⟨_, unit_clamp01 z, hc.symm⟩
      · obtain ⟨b, hb, hc⟩ := Option.bind_eq_some_iff.1 hc
        simp only [Option.pure_def, Option.some.injEq] at hc
        exact ⟨b, ho b (List.mem_of_getElem? hb), hc.symm⟩
    obtain ⟨b, hb', hc⟩ := hb
    rcases List.mem_cons.1 hq with rfl | hq
    · subst hc
      split
      · exact at_has hw hh hx' hb'
      · exact at_has hw hh hb' hy'
    · exact ih hp' q hq

theorem areas_within {r : Rect} (hw : 0 ≤ r.w) (hh : 0 ≤ r.h) {v : Bool} {xs ys os : List ℝ} (hx : Unit01 xs)
    (hy : Unit01 ys) (ho : Unit01 os) {z : ℝ} {M K : Type} {ops : List (PlotOp M K)}
    (h : areasDraw v r xs ys os z = some ops) :
    ∃ a b c : Path, ops = [.path a, .path b, .path c] ∧ Within r a ∧ Within r b ∧ Within r c := by
  unfold areasDraw at h
  simp only [Option.bind_eq_bind, Option.bind_eq_some_iff] at h
  obtain ⟨p, h1, low, h2, h3⟩ := h
  simp only [Option.pure_def, Option.some.injEq] at h3
  have w1 := areaHigh_within hw hh hx hy h1
  have w2 := areaLow_within hw hh hx hy ho h2
  have w3 : ∀ q ∈ low, ∃ q' : Vec2, r.Has q' ∧ PathCmd.lineTo q.x q.y = .lineTo q'.x q'.y := fun q hq => ⟨q, w2 q hq, rfl⟩
  refine ⟨_, _, _, h3.symm, ?_, w1, ?_⟩
  · intro c hc
    simp only [List.mem_append, List.mem_singleton] at hc
    rcases hc with (hc | hc) | hc
    · exact w1 c hc
    · simp only [lineTos, List.mem_map] at hc
      obtain ⟨q, hq, rfl⟩ := hc
      exact .inr ⟨q, w2 q hq, .inr rfl⟩
    · exact .inl hc
  · intro c hc
    cases low with
    | nil => simp [pathAddPolyLine] at hc
    | cons q low =>
      simp only [pathAddPolyLine, lineTos, List.nil_append, List.mem_cons, List.mem_map] at hc
      rcases hc with rfl | ⟨q', hq, rfl⟩
      · exact .inr ⟨q, w2 q (.head _), .inl rfl⟩
      · exact .inr ⟨q', w2 q' (.tail _ hq), .inr rfl⟩

/-- C89: an `areas` element is drawn inside the plot area. -/
theorem C89_areas (P : PlotEnv φ) (cmds : List Expr) (L : Layer φ) (hp : L.palette ≠ []) (s : PlotState φ)
    (hprep : plotPrepare P cmds { layer := L } = (s, none)) (hw : Without scaleNames cmds)
    (pre post : List Expr) (e : Expr) (hc : cmds = pre ++ e :: post) (hwe : Without scaleNames (argsOf e))
    (t : PlotState φ) (ht : plotDraw P pre s = (t, none)) (hn : nameOf e = some "areas".toList)
    (hcw : 0 ≤ t.clip.w) (hch : 0 ≤ t.clip.h) (t' : PlotState φ) (hrun : areasCmd P (argsOf e) t = (t', none)) :
    ∃ shapes, t' = { t with layer := draw t.layer shapes } ∧ ∀ c ∈ shapes, Within t.clip c.path := by
  unfold areasCmd withConfig at hrun
  cases hcf : areasConfigure P t (argsOf e) with
  | error f => rw [hcf] at hrun; simp at hrun
  | ok c =>
    rw [hcf] at hrun
    simp only at hrun
    obtain ⟨h1, h2⟩ := C89_automatic P cmds L hp s hprep hw pre post e hc hwe t ht "areas" hn _ _ _ (.areas rfl hcf)
    unfold areasRender at hrun
    split at hrun
    · simp at hrun
    rename_i xs xos ys yos hd
    have hd' : translateBuf P c.scales.x c.x = .ok xs ∧ translateBuf P c.scales.x c.xoffset = .ok xos ∧
        translateBuf P c.scales.y c.y = .ok ys ∧ translateBuf P c.scales.y c.yoffset = .ok yos := by
      unfold areasData at hd
      obtain ⟨a1, e1, hd⟩ := bind_ok_iff.1 hd
      obtain ⟨a2, e2, hd⟩ := bind_ok_iff.1 hd
      obtain ⟨a3, e3, hd⟩ := bind_ok_iff.1 hd
      obtain ⟨a4, e4, hd⟩ := bind_ok_iff.1 hd
      cases hd
      exact ⟨e1, e2, e3, e4⟩
    obtain ⟨e1, e2, e3, e4⟩ := hd'
    have u1 : Unit01 xs := h1 _ (by simp) _ e1
    have u2 : Unit01 xos := h1 _ (by simp) _ e2
    have u3 : Unit01 ys := h2 _ (by simp) _ e3
    have u4 : Unit01 yos := h2 _ (by simp) _ e4
    have fin : ∀ {v : Bool} {os : List ℝ} {z : ℝ}, Unit01 os →
        drawOn t (renderArea c (areasDraw v t.clip xs ys os z) t.layer) = (t', none) →
        ∃ shapes, t' = { t with layer := draw t.layer shapes } ∧ ∀ c ∈ shapes, Within t.clip c.path := by
      intro v os z ho hrun
      cases hdr : areasDraw (M := Marker) (K := Color) v t.clip xs ys os z with
      | none => rw [hdr] at hrun; simp [renderArea, drawOn] at hrun
      | some ops =>
        obtain ⟨p, q, r, rfl, w1, w2, w3⟩ := areas_within hcw hch u1 u3 ho hdr
        rw [hdr] at hrun
        simp only [renderArea, drawOn, renderPath, drawShape, Prod.mk.injEq, and_true] at hrun
        refine ⟨[⟨p, addStroke StrokeState.default.style (addFill c.fill Compound.none), false⟩,
          ⟨q, addStroke c.strokeHigh.style (addFill FillStyle.default Compound.none), false⟩,
          ⟨r, addStroke c.strokeLow.style (addFill FillStyle.default Compound.none), false⟩], ?_, ?_⟩
        · rw [← hrun]; simp only [draw, List.append_assoc, List.cons_append, List.nil_append]
        · intro c hc
          simp only [List.mem_cons, List.not_mem_nil, or_false] at hc
          rcases hc with rfl | rfl | rfl
          · exact w1
          · exact w2
          · exact w3
    split at hrun
    · split at hrun
      · simp at hrun
      · exact fin u2 hrun
    · split at hrun
      · simp at hrun
      · exact fin u4 hrun

/-- C89 (violated by the code): the sizes of rectangles do not count for the limits, so the rectangle at the largest data
value is not inside the plot area. -/
theorem C89_rectangle_outside (clip : Rect) (y w h : ℝ) (hw : 0 < w) :
    ¬ Within clip (pathAddRectCentered [] ⟨clip.x + clip.w * 1, clip.y + clip.h * y⟩ ⟨w, h⟩) := by
  intro hc
  have := hc (.lineTo (clip.x + clip.w * 1 + w / 2) (clip.y + clip.h * y - h / 2)) (by
    simp [pathAddRectCentered])
  rcases this with h | ⟨q, hq, h | h⟩
  · simp at h
  · simp at h
  · simp only [PathCmd.lineTo.injEq] at h
    have := hq.2.1
    rw [← h.1] at this
    linarith

/-! ## An example -/

def exData (n : String) (vs : List String) : Expr :=
  .list [.literal n.toList, .list (.literal "list".toList :: vs.map fun v => .literal v.toList)]

def exLines : Expr := .list [.literal "lines".toList, exData "data-x" ["1", "4"], exData "data-y" ["2", "8"]]

def exConf (s : PlotState φ) : LinesConf φ := { linesDefault s with
  refs := { refX := some (.list (.literal "list".toList :: ["1", "4"].map fun v => .literal v.toList)),
            refY := some (.list (.literal "list".toList :: ["2", "8"].map fun v => .literal v.toList)) }
  x := ⟨[(false, 0), (false, 1)], [], ["1".toList, "4".toList]⟩
  y := ⟨[(false, 0), (false, 1)], [], ["2".toList, "8".toList]⟩ }

theorem exLines_ok (P : PlotEnv φ) (s : PlotState φ) : linesConfigure P s (argsOf exLines) = .ok (exConf s) := by
  have hx : optTable (linesOpts P (s.env P)) "data-x".toList = some (onPart (·.refs) (fun c v => { c with refs := v })
      fun args d => ({ d with refX := args.head? }, none)) := by
    simp [optTable, linesOpts, liftOpts, dataOpts, List.find?]
  have hy : optTable (linesOpts P (s.env P)) "data-y".toList = some (onPart (·.refs) (fun c v => { c with refs := v })
      fun args d => ({ d with refY := args.head? }, none)) := by
    simp [optTable, linesOpts, liftOpts, dataOpts, List.find?]
  have hex : walkRead (optTable (linesOpts P (s.env P))) (argsOf exLines) (linesDefault s) =
      ({ linesDefault s with refs := (exConf s).refs }, none) :=
    (walkRead_ok _ _ _ _).2 (.cons rfl hx rfl (.cons rfl hy rfl (.nil _)))
  unfold linesConfigure
  rw [hex]
  have h1 : loadInlineRef P.readFile (exConf s).refs.refX = (["1".toList, "4".toList], .ok ()) := rfl
  have h2 : loadInlineRef P.readFile (exConf s).refs.refY = (["2".toList, "8".toList], .ok ()) := rfl
  simp only [dataLoadPolylines2, h1, h2]
  rfl

theorem exNumbers (P : PlotEnv φ) (a b : Str) : databufToNumbers P.parse ⟨[(false, 0), (false, 1)], [], [a, b]⟩ =
    some [P.parse a, P.parse b] := by
  simp [databufToNumbers]

/-- A plot with a line from (1, 2) to (4, 8): the limits are 1, 4 and 2, 8. -/
theorem exPrepare (P : PlotEnv φ) (L : Layer φ) (h1 : P.parse "1".toList = some 1) (h4 : P.parse "4".toList = some 4)
    (h2 : P.parse "2".toList = some 2) (h8 : P.parse "8".toList = some 8) :
    plotPrepare P [exLines] { layer := L } =
      ({ layer := L, scales := ⟨{ hints := ⟨some 1, some 4⟩ }, { hints := ⟨some 2, some 8⟩ }⟩ }, none) := by
  unfold plotPrepare
  refine (walkSkip_ok _ _ _ _).2 ⟨by intro c hc; simp only [List.mem_singleton] at hc; subst hc; rfl, ?_⟩
  rw [show [exLines].filter (Commands.isKnown (optTable (prepareTable P (PlotState.env { layer := L } P)))) = [exLines] by
    simp only [List.filter_cons, List.filter_nil]
    rw [if_pos (shown_known (n := "lines") rfl (by decide))]]
  refine .cons rfl (prepare_lines P _) ?_ (.nil _)
  unfold linesAutorange withConfig
  have := exLines_ok P ({ layer := L } : PlotState φ)
  unfold exLines argsOf at this
  simp only [this]
  simp only [onPart, fitAll, tryChain, List.map_cons, List.map_nil, List.cons_append, List.nil_append, onX, onY, scaleFitBuf,
    fitNumbers, exConf, exNumbers, h1, h2, h4, h8]
  simp [scaleFit, fitHints]
  norm_num

theorem exTranslate (P : PlotEnv φ) (s : Scale) (hk : s.kind = .linear) (a b : Str) (u v : ℝ) (ha : isNumber a = true)
    (hb : isNumber b = true) (pa : P.parse a = some u) (pb : P.parse b = some v) (x y : ℝ)
    (hx : scaleTranslate .exact s u = some x) (hy : scaleTranslate .exact s v = some y) :
    translateBuf P s ⟨[(false, 0), (false, 1)], [], [a, b]⟩ = .ok [x, y] := by
  simp [translateBuf, translatevBuf, hk, firstNonNumber, ha, hb, exNumbers, pa, pb, translateValue, hx, hy]

example (P : PlotEnv φ) (L : Layer φ) (hp : L.palette ≠ []) (h1 : P.parse "1".toList = some 1)
    (h4 : P.parse "4".toList = some 4) (h2 : P.parse "2".toList = some 2) (h8 : P.parse "8".toList = some 8) :
    let t : PlotState φ := { layer := L, scales := ⟨{ hints := ⟨some 1, some 4⟩ }, { hints := ⟨some 2, some 8⟩ }⟩ }
    0 ≤ t.clip.w → 0 ≤ t.clip.h →
    ∃ t' shapes, linesCmd P (argsOf exLines) t = (t', none) ∧ t' = { t with layer := draw t.layer shapes } ∧
      ∀ c ∈ shapes, Within t.clip c.path := by
  intro t hw hh
  have hx : translateBuf P t.scales.x (exConf t).x = .ok [0, 1] :=
    exTranslate P _ rfl _ _ 1 4 (by decide) (by decide) h1 h4 0 1
      (by norm_num [t, scaleTranslate, translateLinear, scaleMin, scaleMax]) (by norm_num [t, scaleTranslate, translateLinear, scaleMin, scaleMax])
  have hy : translateBuf P t.scales.y (exConf t).y = .ok [0, 1] :=
    exTranslate P _ rfl _ _ 2 8 (by decide) (by decide) h2 h8 0 1
      (by norm_num [t, scaleTranslate, translateLinear, scaleMin, scaleMax]) (by norm_num [t, scaleTranslate, translateLinear, scaleMin, scaleMax])
  have hd := C42_lines_partial (M := Marker) (K := Color) t.clip ⟨[], 0, .disk, .black, [], 0, t.fontSize⟩ [0, 1] [0, 1] rfl
    (by simp) (by simp)
  have hr : ∃ t', linesCmd P (argsOf exLines) t = (t', none) := by
    unfold linesCmd withConfig
    rw [exLines_ok]
    simp only [linesRender, show (exConf t).scales = t.scales from rfl, hx, hy]
    have : linesDraw t.clip ⟨(exConf t).groups, (exConf t).markerSize, (exConf t).markerShape, (exConf t).markerColor,
      (exConf t).labels, (exConf t).labelPadding, (exConf t).labelFontSize⟩ [0, 1] [0, 1] = _ := hd
    rw [this]
    have u : Unit01 [0, 1] := by
      intro p hp
      simp only [List.mem_cons, List.not_mem_nil, or_false] at hp
      rcases hp with rfl | rfl <;> norm_num
    obtain ⟨sh, e1, -⟩ := renderPaths (P := P) (st := ⟨(exConf t).stroke, .default, (exConf t).labelFonts,
      (exConf t).labelFontSize, (exConf t).labelColor⟩) (L := t.layer) (lines_within hw hh rfl rfl u u hd)
    simp only [renderOps?, e1, drawOn]
    exact ⟨_, rfl⟩
  obtain ⟨t', hr⟩ := hr
  have hno : ∀ n ∈ scaleNames, "lines" ≠ n ∧ "data-x" ≠ n ∧ "data-y" ≠ n := by decide
  obtain ⟨shapes, h⟩ := C89_lines P [exLines] L hp t (exPrepare P L h1 h4 h2 h8)
    (by
      intro e he n hn hne
      simp only [List.mem_singleton] at he
      subst he
      exact (hno n hn).1 (name_inj rfl hne))
    [] [] exLines rfl
    (by
      intro e he n hn hne
      have hno' : ∀ n ∈ scaleNames ++ ["marker-size", "labels"], "data-x" ≠ n ∧ "data-y" ≠ n := by decide
      simp only [exLines, argsOf, List.mem_cons, List.not_mem_nil, or_false] at he
      rcases he with rfl | rfl
      · exact (hno' n hn).1 (name_inj rfl hne)
      · exact (hno' n hn).2 (name_inj rfl hne))
    t rfl rfl hw hh t' hr
  exact ⟨t', shapes, hr, h⟩

end
end Clip
