import Verif.Props.Hatch
/-!
# C62: when hatching ends
-/
set_option linter.unusedSimpArgs false
namespace Clip
noncomputable section

/-- Far out, the lines meet no edge that is not a point. -/
theorem far_none (clip : List Vec2) (angle offset stride width : ℝ) (hs : stride ≠ 0) :
    ∃ n : Nat, n ≠ 0 ∧ ∀ s : ℝ, |s| = 1 → ∀ w : ℝ, |w| = |width / 2| → ∀ e ∈ polyEdges clip, e.1 ≠ e.2 →
      intersectLineSeg ((meanVec clip).add ((fromDeg (angle + 90)).scale (n * s * stride + offset + w)))
        (fromDeg angle) e.1 e.2 = none := by
  obtain ⟨R, hR⟩ := bounded clip
  set B : ℝ := (R + 1 + |(meanVec clip).x|) + (R + 1 + |(meanVec clip).y|) + |offset| + |width / 2| with hB
  obtain ⟨n, hn⟩ := exists_nat_gt ((max B 0) / |stride|)
  have hst : 0 < |stride| := abs_pos.2 hs
  rw [div_lt_iff₀ hst] at hn
  have hn0 : n ≠ 0 := by
    rintro rfl
    simp at hn
  refine ⟨n, hn0, ?_⟩
  intro s hs1 w hwa e he hne
  rcases hq : intersectLineSeg ((meanVec clip).add ((fromDeg (angle + 90)).scale (n * s * stride + offset + w)))
      (fromDeg angle) e.1 e.2 with _ | _ | q
  · rfl
  · exact absurd hq (lineSeg_some (fromDeg_nonZero angle) hne)
  exfalso
  obtain ⟨hon, -, hnear⟩ := C41_segment _ _ _ _ _ hq
  obtain ⟨m1, m2⟩ := mem_polyEdges he
  obtain ⟨r1, r2⟩ := hR _ m1
  obtain ⟨r3, r4⟩ := hR _ m2
  have hd := ortho_dist hon
  obtain ⟨b1, b2, b3, b4⟩ := hnear
  rw [abs_le] at r1 r2 r3 r4
  have qx : |q.x| ≤ R + 1 := by
    apply abs_le.2
    constructor
    · have : -R ≤ min e.1.x e.2.x := le_min r1.1 r3.1
      linarith
    · have : max e.1.x e.2.x ≤ R := max_le r1.2 r3.2
      linarith
  have qy : |q.y| ≤ R + 1 := by
    apply abs_le.2
    constructor
    · have : -R ≤ min e.1.y e.2.y := le_min r2.1 r4.1
      linarith
    · have : max e.1.y e.2.y ≤ R := max_le r2.2 r4.2
      linarith
  have d1 : |q.x - (meanVec clip).x| ≤ R + 1 + |(meanVec clip).x| := (abs_sub _ _).trans (by linarith)
  have d2 : |q.y - (meanVec clip).y| ≤ R + 1 + |(meanVec clip).y| := (abs_sub _ _).trans (by linarith)
  have hk : (n : ℝ) * |stride| ≤ |n * s * stride + offset + w| + |offset| + |w| := by
    have e1 : |(n : ℝ) * s * stride| = n * |stride| := by
      rw [abs_mul, abs_mul, hs1, mul_one, Nat.abs_cast]
    rw [← e1]
    calc |(n : ℝ) * s * stride| = |(n * s * stride + offset + w) - (offset + w)| := by congr 1; ring
      _ ≤ |n * s * stride + offset + w| + |offset + w| := abs_sub _ _
      _ ≤ |n * s * stride + offset + w| + (|offset| + |w|) := by linarith [abs_add_le offset w]
      _ = _ := by ring
  have := le_max_left B 0
  linarith

theorem filterMap_le_filter {α β : Type} (f : α → Option β) (p : α → Bool) (l : List α)
    (h : ∀ a ∈ l, p a = false → f a = none) : (l.filterMap f).length ≤ (l.filter p).length := by
  induction l with
  | nil => simp
  | cons a l ih =>
    have ih := ih fun x hx => h x (List.mem_cons_of_mem _ hx)
    rw [List.filterMap_cons, List.filter_cons]
    cases hp : p a
    · rw [h a (by simp) hp]
      simpa using ih
    · cases f a
      · simp only [if_true, List.length_cons]; omega
      · simp only [if_true, List.length_cons]; omega

open Classical in
/-- C62: hatching ends exactly if the stride is 0 or the shape has at most one edge of length zero, whatever the angle,
the offset and the width. -/
theorem C62_ends (clip : List Vec2) (angle offset stride width : ℝ) :
    (∃ r, ShapeHatch clip angle offset stride width r) ↔
      stride = 0 ∨ ((polyEdges clip).filter fun e => decide (e.1 = e.2)).length ≤ 1 := by
  constructor
  · rintro ⟨r, hr⟩
    by_contra hc
    push Not at hc
    obtain ⟨hs, h2⟩ := hc
    have hd := C62_degenerate_diverges clip angle offset stride width hs h2
    rw [ShapeHatch, if_neg hs] at hr
    exact hd.2.not_returns hr
  · rintro (hs | h1)
    · exact ⟨[], by simp [ShapeHatch, hs]⟩
    by_cases hs : stride = 0
    · exact ⟨[], by simp [ShapeHatch, hs]⟩
    obtain ⟨n, hn0, hn⟩ := far_none clip angle offset stride width hs
    have hlen : ∀ s : ℝ, |s| = 1 → ∀ w : ℝ, |w| = |width / 2| → (intersectPolyLine clip
        ((meanVec clip).add ((fromDeg (angle + 90)).scale (n * s * stride + offset + w))) (fromDeg angle)).length ≤ 1 := by
      intro s hs1 w hw
      refine (filterMap_le_filter _ (fun e => decide (e.1 = e.2)) _ ?_).trans h1
      intro e he hp
      exact hn s hs1 w hw e he (by simpa using hp)
    have hz : hatchPieces clip angle offset stride width n = [] := by
      rw [hatchPieces, List.filter_eq_nil_iff]
      intro v hv
      obtain ⟨s, hsn, rfl⟩ := List.mem_map.1 hv
      rw [hatchSigns, if_neg hn0] at hsn
      have hs1 : |s| = 1 := by
        simp only [List.mem_cons, List.not_mem_nil, or_false] at hsn
        rcases hsn with rfl | rfl <;> simp
      have a1 := hlen s hs1 (width * 0.5) (by congr 1; ring)
      have a2 := hlen s hs1 (width * -0.5) (by rw [← abs_neg]; congr 1; ring)
      simp only [hatchVertices, List.length_append, decide_eq_true_eq]
      omega
    obtain ⟨r, hr, -⟩ := hatch_loop clip angle offset stride width (fun _ => True) (by simp) n hz n 0 [] (by omega) (by simp)
    exact ⟨r, by rw [ShapeHatch, if_neg hs]; exact hr⟩

end
end Clip
