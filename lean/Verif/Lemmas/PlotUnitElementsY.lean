import Verif.Lemmas.PlotUnitsY
set_option linter.unusedSimpArgs false
/-! # Plots in other units along the vertical scale: elements -/
namespace Clip.Units.Vertical
open Settings Drawing Pictures PlotSpec AxisSpec DataSpec Elements Options LegendSpec Whole
noncomputable section
variable {φ : Type} {P : PlotEnv φ} {a b : ℝ}

/-- The plot in other units. -/
def R (a b : ℝ) (s : PlotState φ) : PlotState φ := { s with scales := convS a b s.scales }

/-- What is known of the scale of an element. -/
def Keeps (s : PlotState φ) (c : Scales) : Prop := c.y.kind = .linear ∧ (Limited s.scales.y → Limited c.y)

macro "restY" hc:term : tactic => `(tactic| first
  | exact known_same (by assumption) $hc
  | exact last_same (by assumption) $hc (by othersY)
  | exact acts_same (by assumption) $hc (by othersY)
  | assumption)

theorem colors_conv {E : ReadEnv} {cs cs' : List Expr} (hc : List.Forall₂ (Option' P E a b) cs cs') {d e : SeriesData}
    (h : ColorsMeans P E cs d e) : ColorsMeans P E cs' d e := by
  obtain ⟨h1, h2⟩ := h
  constructor <;> restY hc

theorem sizes_conv {E : ReadEnv} {cs cs' : List Expr} (hc : List.Forall₂ (Option' P E a b) cs cs') {d e : SeriesData}
    (h : SizesMeans P E cs d e) : SizesMeans P E cs' d e := by
  obtain ⟨h1, h2⟩ := h
  constructor <;> restY hc

variable {s : PlotState φ} {cs cs' : List Expr}

theorem lines_conv (hc : List.Forall₂ (Option' P (s.env P) a b) cs cs') (hk : s.scales.y.kind = .linear) {c : LinesConf φ}
    (h : SettledLines P s cs c) : ∃ r x', SettledLines P (R a b s) cs' { c with refs := r, y := x', scales := convS a b c.scales } ∧
      Converted P (a * · + b) c.y x' ∧ Keeps s c.scales := by
  obtain ⟨ha, o, ⟨k, d, sc, m1, m2, m3, m4, m5, m6, m7, m8, m9, m10⟩, x, y, g, u, h1, h2, h3, rfl⟩ := h
  obtain ⟨r, r1, r2, r3⟩ := refs_conv hc d
  obtain ⟨s1, s2, s3⟩ := scales_conv hc sc hk
  have hx : o.y = Defaults.noData := m10.2.1
  obtain ⟨z, l1, l2⟩ := lines_load r2 r3 (hx ▸ converted_nil) h1
  refine ⟨{ o.refs with refY := r }, z, ⟨?_, { o with refs := { o.refs with refY := r }, scales := convS a b o.scales }, ?_, x, z, g, u, ?_, ?_, ?_, rfl⟩, l2, s2, s3⟩
  · refine accepted_conv ha hc ?_
    unfold linesTakes
    refine List.forall_mem_append.2 ⟨List.forall_mem_append.2 ⟨takes_refs, takes_scales⟩, ?_⟩
    takenY
  · constructor <;> first | exact r1 | exact s1 | restY hc
  · rw [hx] at *; exact l1
  · rw [converted_length l2]; exact h2
  · exact h3

theorem points_conv (hc : List.Forall₂ (Option' P (s.env P) a b) cs cs') (hk : s.scales.y.kind = .linear) {c : PointsConf φ}
    (h : SettledPoints P s cs c) : ∃ r x', SettledPoints P (R a b s) cs' { c with refs := r, y := x', scales := convS a b c.scales } ∧
      Converted P (a * · + b) c.y x' ∧ Keeps s c.scales := by
  obtain ⟨ha, o, ⟨k, d, sc, co, si, m1, m2, m3, m4, m5, m6, m7, m8, m9, m10⟩, x, y, cl, sz, ⟨u, h1, h2⟩, h3, h4, rfl⟩ := h
  obtain ⟨r, r1, r2, r3⟩ := refs_conv hc d
  obtain ⟨s1, s2, s3⟩ := scales_conv hc sc hk
  have hx : o.y = Defaults.noData := m10.2.1
  obtain ⟨z, l1, l2⟩ := points_load r2 r3 (hx ▸ converted_nil) h1
  refine ⟨{ o.refs with refY := r }, z, ⟨?_, { o with refs := { o.refs with refY := r }, scales := convS a b o.scales }, ?_, x, z, cl, sz, ⟨u, ?_, ?_⟩, h3, h4, rfl⟩, l2, s2, s3⟩
  · refine accepted_conv ha hc ?_
    unfold pointsTakes
    refine List.forall_mem_append.2 ⟨List.forall_mem_append.2 ⟨List.forall_mem_append.2 ⟨takes_refs, takes_scales⟩, List.forall_mem_append.2 ⟨takes_colors, takes_sizes⟩⟩, ?_⟩
    takenY
  · constructor <;> first | exact r1 | exact s1 | exact colors_conv hc co | exact sizes_conv hc si | restY hc
  · rw [hx] at *; exact l1
  · rw [converted_length l2]; exact h2

theorem labels_conv (hc : List.Forall₂ (Option' P (s.env P) a b) cs cs') (hk : s.scales.y.kind = .linear) {c : LabelsConf φ}
    (h : SettledLabels P s cs c) : ∃ r x', SettledLabels P (R a b s) cs' { c with refs := r, y := x', scales := convS a b c.scales } ∧
      Converted P (a * · + b) c.y x' ∧ Keeps s c.scales := by
  obtain ⟨ha, o, ⟨k, d, sc, m1, m2, m3, m4, m5, m6⟩, x, y, ⟨u, h1, h2⟩, rfl⟩ := h
  obtain ⟨r, r1, r2, r3⟩ := refs_conv hc d
  obtain ⟨s1, s2, s3⟩ := scales_conv hc sc hk
  have hx : o.y = Defaults.noData := m6.2
  obtain ⟨z, l1, l2⟩ := points_load r2 r3 (hx ▸ converted_nil) h1
  refine ⟨{ o.refs with refY := r }, z, ⟨?_, { o with refs := { o.refs with refY := r }, scales := convS a b o.scales }, ?_, x, z, ⟨u, ?_, ?_⟩, rfl⟩, l2, s2, s3⟩
  · refine accepted_conv ha hc ?_
    unfold labelsTakes
    refine List.forall_mem_append.2 ⟨List.forall_mem_append.2 ⟨takes_refs, takes_scales⟩, ?_⟩
    takenY
  · constructor <;> first | exact r1 | exact s1 | restY hc
  · rw [hx] at *; exact l1
  · rw [converted_length l2]; exact h2

theorem rectangles_conv (hc : List.Forall₂ (Option' P (s.env P) a b) cs cs') (hk : s.scales.y.kind = .linear) {c : RectanglesConf}
    (h : SettledRectangles P s cs c) : ∃ r x' z', SettledRectangles P (R a b s) cs' { c with refs := r, y := x', sizeY := z', scales := convS a b c.scales } ∧
      Converted P (a * · + b) c.y x' ∧ Converted P (a * ·) c.sizeY z' ∧ Keeps s c.scales := by
  obtain ⟨ha, o, ⟨k, d, sc, co, m1, m2, m3, m4, m5, m6⟩, x, y, cl, ⟨u, h1, h2⟩, h3, rfl⟩ := h
  obtain ⟨r, r1, r2, r3⟩ := refs_conv hc d
  obtain ⟨s1, s2, s3⟩ := scales_conv hc sc hk
  have hx : o.y = Defaults.noData := m6.2.1
  obtain ⟨z, l1, l2⟩ := points_load r2 r3 (hx ▸ converted_nil) h1
  obtain ⟨z', z1, z2⟩ := acts_sim (ρ := Converted P (a * ·)) hc (by
    intro p hp c c' hcc hn x x' y hx hy
    simp only [List.mem_cons, List.not_mem_nil, or_false] at hp
    rcases hp with rfl | rfl
    · obtain ⟨vs, vs', h3, h4, h5⟩ := inv_length (n := "data-size-y") hcc (by decide) hn
      obtain ⟨us, h6, rfl⟩ := hy
      rw [h3] at h6
      cases h6
      exact ⟨_, ⟨vs', h4, rfl⟩, converted_add hx h5⟩
    · exact absurd hn (never (n := "data-size") hcc (by decide))) (x := Defaults.noData) (x' := Defaults.noData) converted_nil m2
  refine ⟨{ o.refs with refY := r }, z, z', ⟨?_, { o with refs := { o.refs with refY := r }, sizeY := z', scales := convS a b o.scales }, ?_, x, z, cl, ⟨u, ?_, ?_⟩, h3, rfl⟩, l2, z2, s2, s3⟩
  · refine accepted_conv ha hc ?_
    unfold rectanglesTakes
    refine List.forall_mem_append.2 ⟨List.forall_mem_append.2 ⟨List.forall_mem_append.2 ⟨takes_refs, takes_scales⟩, takes_colors⟩, ?_⟩
    takenY
  · constructor <;> first | exact r1 | exact s1 | exact z1 | exact colors_conv hc co | restY hc
  · rw [hx] at *; exact l1
  · rw [converted_length l2]; exact h2

theorem vectors_conv (hc : List.Forall₂ (Option' P (s.env P) a b) cs cs') (hk : s.scales.y.kind = .linear) {c : VectorsConf}
    (h : SettledVectors P s cs c) : ∃ r x' z', SettledVectors P (R a b s) cs' { c with refs := r, y := x', dy := z', scales := convS a b c.scales } ∧
      Converted P (a * · + b) c.y x' ∧ Converted P (a * ·) c.dy z' ∧ Keeps s c.scales := by
  obtain ⟨ha, o, ⟨k, d, sc, co, si, m1, m2, m3, m4, m6⟩, x, y, cl, sz, ⟨u, h1, h2⟩, h3, h4, rfl⟩ := h
  obtain ⟨r, r1, r2, r3⟩ := refs_conv hc d
  obtain ⟨s1, s2, s3⟩ := scales_conv hc sc hk
  have hx : o.y = Defaults.noData := m6.2.1
  obtain ⟨z, l1, l2⟩ := points_load r2 r3 (hx ▸ converted_nil) h1
  obtain ⟨z', z1, z2⟩ := length_conv (by simp) hc m2 (d' := Defaults.noData) converted_nil
  refine ⟨{ o.refs with refY := r }, z, z', ⟨?_, { o with refs := { o.refs with refY := r }, dy := z', scales := convS a b o.scales }, ?_, x, z, cl, sz, ⟨u, ?_, ?_⟩, h3, h4, rfl⟩, l2, z2, s2, s3⟩
  · refine accepted_conv ha hc ?_
    unfold vectorsTakes
    refine List.forall_mem_append.2 ⟨List.forall_mem_append.2 ⟨List.forall_mem_append.2 ⟨takes_refs, takes_scales⟩, List.forall_mem_append.2 ⟨takes_colors, takes_sizes⟩⟩, ?_⟩
    takenY
  · constructor <;> first | exact r1 | exact s1 | exact z1 | exact colors_conv hc co | exact sizes_conv hc si | restY hc
  · rw [hx] at *; exact l1
  · rw [converted_length l2]; exact h2

theorem ranges_conv {f : ℝ → ℝ} {x x' o o' y w : DataBuffer (Option ℝ)} (hx : Converted P f x x') (ho : Converted P f o o')
    (h : RangesFit y w x o) : RangesFit y w x' o' := by
  unfold RangesFit at *
  rw [converted_length hx, converted_length ho]
  exact h

theorem bars_conv (hc : List.Forall₂ (Option' P (s.env P) a b) cs cs') (hk : s.scales.y.kind = .linear) {c : BarsConf φ}
    (h : SettledBars P s cs c) : ∃ x' o', SettledBars P (R a b s) cs' { c with y := x', yoffset := o', scales := convS a b c.scales } ∧
      Converted P (a * · + b) c.y x' ∧ Converted P (a * · + b) c.yoffset o' ∧ Keeps s c.scales := by
  obtain ⟨ha, o, ⟨k, sc, m1, m2, m3, m4, m5, m6, m7, m8, m9, m10, m11, m12, m13, m14, m15, m16⟩, h1, rfl⟩ := h
  obtain ⟨s1, s2, s3⟩ := scales_conv hc sc hk
  obtain ⟨x', x1, x2⟩ := data_conv (by simp) hc m2 (d' := Defaults.noData) converted_nil
  obtain ⟨o', o1, o2⟩ := data_conv (by simp) hc m4 (d' := Defaults.noData) converted_nil
  refine ⟨x', o', ⟨?_, { c with y := x', yoffset := o', scales := convS a b c.scales }, ?_, ranges_conv x2 o2 h1, rfl⟩, x2, o2, ⟨s2, s3⟩⟩
  · refine accepted_conv ha hc ?_
    unfold barsTakes
    refine List.forall_mem_append.2 ⟨takes_scales, ?_⟩
    takenY
  · constructor <;> first | exact s1 | exact x1 | exact o1 | restY hc

theorem areas_conv (hc : List.Forall₂ (Option' P (s.env P) a b) cs cs') (hk : s.scales.y.kind = .linear) {c : AreasConf}
    (h : SettledAreas P s cs c) : ∃ r x' o', SettledAreas P (R a b s) cs' { c with refs := r, y := x', yoffset := o', scales := convS a b c.scales } ∧
      Converted P (a * · + b) c.y x' ∧ Converted P (a * · + b) c.yoffset o' ∧ Keeps s c.scales := by
  obtain ⟨ha, o, ⟨k, d, sc, m1, m2, m3, m4, m5, m6, m7, m8⟩, x, y, u, h1, h2, rfl⟩ := h
  obtain ⟨r, r1, r2, r3⟩ := refs_conv hc d
  obtain ⟨s1, s2, s3⟩ := scales_conv hc sc hk
  obtain ⟨x', x1, x2⟩ := data_conv (by simp) hc m2 (d' := Defaults.noData) converted_nil
  obtain ⟨o', o1, o2⟩ := data_conv (by simp) hc m4 (d' := Defaults.noData) converted_nil
  obtain ⟨z, l1, l2⟩ := points_load r2 r3 x2 h1
  refine ⟨{ o.refs with refY := r }, z, o', ⟨?_, { o with refs := { o.refs with refY := r }, y := x', yoffset := o', scales := convS a b o.scales }, ?_, x, z, u, l1, ranges_conv l2 o2 h2, rfl⟩, l2, o2, ⟨s2, s3⟩⟩
  · refine accepted_conv ha hc ?_
    unfold areasTakes
    refine List.forall_mem_append.2 ⟨List.forall_mem_append.2 ⟨takes_refs, takes_scales⟩, ?_⟩
    takenY
  · constructor <;> first | exact r1 | exact s1 | exact x1 | exact o1 | restY hc

theorem errorbars_conv (hc : List.Forall₂ (Option' P (s.env P) a b) cs cs') (hk : s.scales.y.kind = .linear) {c : ErrorbarsConf}
    (h : SettledErrorbars P s cs c) : ∃ x' l' h', SettledErrorbars P (R a b s) cs' { c with y := x', yLow := l', yHigh := h', scales := convS a b c.scales } ∧
      Converted P (a * · + b) c.y x' ∧ Converted P (a * · + b) c.yLow l' ∧ Converted P (a * · + b) c.yHigh h' ∧ Keeps s c.scales := by
  obtain ⟨ha, o, ⟨k, sc, co, m1, m2, m3, m4, m5, m6, m7, m8, m9, m10⟩, cl, h1, rfl, h2⟩ := h
  obtain ⟨s1, s2, s3⟩ := scales_conv hc sc hk
  obtain ⟨x', x1, x2⟩ := data_conv (by simp) hc m2 (d' := Defaults.noData) converted_nil
  obtain ⟨l', l1, l2⟩ := data_conv (by simp) hc m5 (d' := Defaults.noData) converted_nil
  obtain ⟨g', g1, g2⟩ := data_conv (by simp) hc m6 (d' := Defaults.noData) converted_nil
  refine ⟨x', l', g', ⟨?_, { o with y := x', yLow := l', yHigh := g', scales := convS a b o.scales }, ?_, cl, h1, rfl, ?_⟩, x2, l2, g2, s2, s3⟩
  · refine accepted_conv ha hc ?_
    unfold errorbarsTakes
    refine List.forall_mem_append.2 ⟨List.forall_mem_append.2 ⟨takes_scales, takes_colors⟩, ?_⟩
    takenY
  · constructor <;> first | exact s1 | exact x1 | exact l1 | exact g1 | exact colors_conv hc co | restY hc
  · simp only [ne_eq, converted_length x2, converted_length l2, converted_length g2, converted_empty x2]
    exact h2

end
end Clip.Units.Vertical
