import Verif.Props.Intersect
/-!
# C62: hatching
-/
namespace Clip
noncomputable section

theorem degenerate_edge (p v s : Vec2) : intersectLineSeg p v s s = some none := by
  simp [intersectLineSeg, intersectDir, normalize_none (sub_self_zero s)]

theorem length_filterMap_ge {α β : Type} (f : α → Option β) (l m : List α) (hm : m.Sublist l)
    (h : ∀ a ∈ m, (f a).isSome = true) : m.length ≤ (l.filterMap f).length := by
  have h1 : (m.filterMap f).length = m.length := by
    induction m with
    | nil => rfl
    | cons a m ih =>
      have ha := h a (by simp)
      obtain ⟨b, hb⟩ := Option.isSome_iff_exists.1 ha
      rw [List.filterMap_cons, hb]
      simp [ih (List.Sublist.trans (List.sublist_cons_self a m) hm) (fun x hx => h x (by simp [hx]))]
  rw [← h1]
  exact (hm.filterMap f).length_le

theorem polyLine_degenerate (clip : List Vec2) (p v : Vec2)
    (h : 2 ≤ ((polyEdges clip).filter fun e => @decide (e.1 = e.2) (Classical.propDecidable _)).length) :
    2 ≤ (intersectPolyLine clip p v).length := by
  refine h.trans (length_filterMap_ge _ _ _ List.filter_sublist ?_)
  rintro ⟨a, b⟩ ha
  rw [List.mem_filter] at ha
  have : a = b := by simpa using ha.2
  subst this
  rw [degenerate_edge]; rfl

open Classical in
/-- C62 (violated by the code): hatching never ends for a polygon with two edges of length zero, such as a
rectangle of width or height zero. -/
theorem C62_degenerate_diverges (clip : List Vec2) (angle offset stride width : ℝ) (hs : stride ≠ 0)
    (h : 2 ≤ ((polyEdges clip).filter fun e => decide (e.1 = e.2)).length) :
    ShapeHatchDiverges clip angle offset stride width := by
  refine ⟨hs, Diverges.of_invariant (fun _ => True) ?_ trivial⟩
  rintro ⟨i, out⟩ -
  have hv : ∀ k, 3 ≤ (hatchVertices clip angle offset width k).length := by
    intro k
    have h1 := polyLine_degenerate clip
      ((meanVec clip).add ((fromDeg (angle + 90)).scale (k + offset + width * 0.5))) (fromDeg angle)
      (by convert h)
    have h2 := polyLine_degenerate clip
      ((meanVec clip).add ((fromDeg (angle + 90)).scale (k + offset + width * -0.5))) (fromDeg angle)
      (by convert h)
    simp only [hatchVertices, List.length_append]
    omega
  have hne : (hatchPieces clip angle offset stride width i).isEmpty = false := by
    cases hp : hatchPieces clip angle offset stride width i with
    | cons => rfl
    | nil =>
      exfalso
      rw [hatchPieces, List.filter_eq_nil_iff] at hp
      have : ∃ s, s ∈ hatchSigns i := by
        unfold hatchSigns; split
        · exact ⟨0, by simp⟩
        · exact ⟨1, by simp⟩
      obtain ⟨s, hs⟩ := this
      exact hp _ (List.mem_map.2 ⟨s, hs, rfl⟩) (by simpa using hv _)
  exact ⟨_, by simp [hatchStep, hne]; rfl, trivial⟩

/-- The rectangle path of a bar of height zero is hatched forever. -/
theorem C62_flat_rectangle_diverges (x y w angle offset stride width : ℝ) (hs : stride ≠ 0) :
    ShapeHatchDiverges (pathToPolygon (pathAddRect [] ⟨x, y, w, 0⟩)) angle offset stride width := by
  apply C62_degenerate_diverges _ _ _ _ _ hs
  have e : pathToPolygon (pathAddRect [] ⟨x, y, w, 0⟩) = [⟨x, y⟩, ⟨x, y⟩, ⟨x + w, y⟩, ⟨x + w, y⟩] := by
    simp [pathToPolygon, pathAddRect]
  rw [e]
  have : polyEdges [(⟨x, y⟩ : Vec2), ⟨x, y⟩, ⟨x + w, y⟩, ⟨x + w, y⟩] =
    [(⟨x, y⟩, ⟨x, y⟩), (⟨x, y⟩, ⟨x + w, y⟩), (⟨x + w, y⟩, ⟨x + w, y⟩), (⟨x + w, y⟩, ⟨x, y⟩)] := rfl
  rw [this]
  have : [((⟨x, y⟩ : Vec2), (⟨x, y⟩ : Vec2)), (⟨x + w, y⟩, ⟨x + w, y⟩)].Sublist
      ([((⟨x, y⟩ : Vec2), (⟨x, y⟩ : Vec2)), (⟨x, y⟩, ⟨x + w, y⟩), (⟨x + w, y⟩, ⟨x + w, y⟩), (⟨x + w, y⟩, ⟨x, y⟩)].filter
        fun e => @decide (e.1 = e.2) (Classical.propDecidable _)) := by
    have h := List.Sublist.filter (fun e : Vec2 × Vec2 => @decide (e.1 = e.2) (Classical.propDecidable _))
      (show [((⟨x, y⟩ : Vec2), (⟨x, y⟩ : Vec2)), (⟨x + w, y⟩, ⟨x + w, y⟩)].Sublist
        [((⟨x, y⟩ : Vec2), (⟨x, y⟩ : Vec2)), (⟨x, y⟩, ⟨x + w, y⟩), (⟨x + w, y⟩, ⟨x + w, y⟩), (⟨x + w, y⟩, ⟨x, y⟩)] from
        ((((List.Sublist.refl []).cons _).cons_cons _).cons _).cons_cons _)
    simpa using h
  exact this.length_le

/-- An edge that is not a point gives no NaN. -/
theorem lineSeg_some {p v s e : Vec2} (hv : v.NonZero) (hne : s ≠ e) : intersectLineSeg p v s e ≠ some none := by
  intro h
  unfold intersectLineSeg at h
  split at h
  · simp at h
  · rename_i hd
    unfold intersectDir at hd
    rw [normalize_some (sub_nonZero hne)] at hd
    simp only at hd
    rw [lineLine_eq _ _ _ _ hv (unit_nonZero (sub_nonZero hne))] at hd
    split at hd <;> simp at hd
  · split at h <;> simp at h

theorem fromDeg_nonZero (a : ℝ) : (fromDeg a).NonZero := cosVec_nonZero _

/-- A point on a hatch line has the line's distance from the origin, measured across the lines. -/
theorem ortho_dist {o q : Vec2} {a k : ℝ}
    (h : OnLine (o.add ((fromDeg (a + 90)).scale k)) (fromDeg a) q) :
    |k| ≤ |q.x - o.x| + |q.y - o.y| := by
  obtain ⟨t, rfl⟩ := h
  have e : -(a + 90) / 180 * Real.pi = -a / 180 * Real.pi - Real.pi / 2 := by ring
  simp only [fromDeg, Vec2.add, Vec2.scale, e, Real.cos_sub_pi_div_two, Real.sin_sub_pi_div_two]
  generalize hc : Real.cos (-a / 180 * Real.pi) = c
  generalize hs : Real.sin (-a / 180 * Real.pi) = s
  have h1 : c ^ 2 + s ^ 2 = 1 := by rw [← hc, ← hs]; exact Real.cos_sq_add_sin_sq _
  have hc1 : |c| ≤ 1 := by rw [← hc]; exact Real.abs_cos_le_one _
  have hs1 : |s| ≤ 1 := by rw [← hs]; exact Real.abs_sin_le_one _
  have e1 : k = (o.x + s * k + t * c - o.x) * s - (o.y + -c * k + t * s - o.y) * c := by
    linear_combination (-k) * h1
  calc |k| = |(o.x + s * k + t * c - o.x) * s - (o.y + -c * k + t * s - o.y) * c| := by rw [← e1]
    _ ≤ |(o.x + s * k + t * c - o.x) * s| + |(o.y + -c * k + t * s - o.y) * c| := abs_sub _ _
    _ ≤ _ := by
      rw [abs_mul, abs_mul]
      have p1 := abs_nonneg (o.x + s * k + t * c - o.x)
      have p2 := abs_nonneg (o.y + -c * k + t * s - o.y)
      nlinarith

theorem bounded (l : List Vec2) : ∃ R : ℝ, ∀ v ∈ l, |v.x| ≤ R ∧ |v.y| ≤ R := by
  induction l with
  | nil => exact ⟨0, by simp⟩
  | cons a l ih =>
    obtain ⟨R, hR⟩ := ih
    refine ⟨max R (max |a.x| |a.y|), ?_⟩
    intro v hv
    rcases List.mem_cons.1 hv with rfl | hv
    · exact ⟨(le_max_left _ _).trans (le_max_right _ _), (le_max_right _ _).trans (le_max_right _ _)⟩
    · exact ⟨(hR v hv).1.trans (le_max_left _ _), (hR v hv).2.trans (le_max_left _ _)⟩

theorem mem_polyEdges {clip : List Vec2} {e : Vec2 × Vec2} (h : e ∈ polyEdges clip) : e.1 ∈ clip ∧ e.2 ∈ clip := by
  have := List.of_mem_zip h
  exact ⟨this.1, List.mem_rotate.1 this.2⟩

/-- Every vertex of a hatch line is on an edge's line, near the edge, and on one of the two border lines. -/
theorem mem_hatchVertices {clip : List Vec2} {angle offset width k : ℝ} {v : Option Vec2}
    (hne : ∀ e ∈ polyEdges clip, e.1 ≠ e.2) (h : v ∈ hatchVertices clip angle offset width k) :
    ∃ q, v = some q ∧ ∃ e ∈ polyEdges clip, OnLine e.1 (e.2.sub e.1) q ∧ NearBox e.1 e.2 q ∧
      ∃ w, (w = width / 2 ∨ w = -(width / 2)) ∧
        OnLine ((meanVec clip).add ((fromDeg (angle + 90)).scale (k + offset + w))) (fromDeg angle) q := by
  have one : ∀ w, v ∈ intersectPolyLine clip
      ((meanVec clip).add ((fromDeg (angle + 90)).scale (k + offset + w))) (fromDeg angle) →
      ∃ q, v = some q ∧ ∃ e ∈ polyEdges clip, OnLine e.1 (e.2.sub e.1) q ∧ NearBox e.1 e.2 q ∧
        OnLine ((meanVec clip).add ((fromDeg (angle + 90)).scale (k + offset + w))) (fromDeg angle) q := by
    intro w hw
    rw [intersectPolyLine, List.mem_filterMap] at hw
    obtain ⟨e, he, hq⟩ := hw
    cases v with
    | none => exact absurd hq (lineSeg_some (fromDeg_nonZero angle) (hne e he))
    | some q =>
      obtain ⟨h1, h2, h3⟩ := C41_segment _ _ _ _ _ hq
      exact ⟨q, rfl, e, he, h2, h3, h1⟩
  rw [hatchVertices, List.mem_append] at h
  rcases h with h | h
  · obtain ⟨q, h1, e, h2, h3, h4, h5⟩ := one _ h
    exact ⟨q, h1, e, h2, h3, h4, _, Or.inl (by ring), h5⟩
  · obtain ⟨q, h1, e, h2, h3, h4, h5⟩ := one _ h
    exact ⟨q, h1, e, h2, h3, h4, _, Or.inr (by ring), h5⟩

/-- Far out there is nothing to draw. -/
theorem far_empty (clip : List Vec2) (angle offset stride width : ℝ) (hs : stride ≠ 0)
    (hne : ∀ e ∈ polyEdges clip, e.1 ≠ e.2) :
    ∃ n : Nat, hatchPieces clip angle offset stride width n = [] := by
  obtain ⟨R, hR⟩ := bounded clip
  set B : ℝ := (R + 1 + |(meanVec clip).x|) + (R + 1 + |(meanVec clip).y|) + |offset| + |width / 2| with hB
  obtain ⟨n, hn⟩ := exists_nat_gt ((max B 0) / |stride|)
  have hst : 0 < |stride| := abs_pos.2 hs
  rw [div_lt_iff₀ hst] at hn
  have hn0 : n ≠ 0 := by
    rintro rfl
    simp at hn
  refine ⟨n, ?_⟩
  have hz : ∀ s ∈ hatchSigns n, hatchVertices clip angle offset width (n * s * stride) = [] := by
    intro s hs
    rw [hatchSigns, if_neg hn0] at hs
    have hs1 : |s| = 1 := by
      simp only [List.mem_cons, List.not_mem_nil, or_false] at hs
      rcases hs with rfl | rfl <;> simp
    rw [List.eq_nil_iff_forall_not_mem]
    intro v hv
    obtain ⟨q, -, e, he, -, hnear, w, hw, hon⟩ := mem_hatchVertices hne hv
    obtain ⟨m1, m2⟩ := mem_polyEdges he
    obtain ⟨r1, r2⟩ := hR _ m1
    obtain ⟨r3, r4⟩ := hR _ m2
    have hd := ortho_dist hon
    obtain ⟨b1, b2, b3, b4⟩ := hnear
    rw [abs_le] at r1 r2 r3 r4
    have qx : |q.x| ≤ R + 1 := by
      apply abs_le.2
      constructor
      · have : -R ≤ min e.1.x e.2.x := le_min r1.1 r3.1
        linarith
      · have : max e.1.x e.2.x ≤ R := max_le r1.2 r3.2
        linarith
    have qy : |q.y| ≤ R + 1 := by
      apply abs_le.2
      constructor
      · have : -R ≤ min e.1.y e.2.y := le_min r2.1 r4.1
        linarith
      · have : max e.1.y e.2.y ≤ R := max_le r2.2 r4.2
        linarith
    have d1 : |q.x - (meanVec clip).x| ≤ R + 1 + |(meanVec clip).x| := (abs_sub _ _).trans (by linarith)
    have d2 : |q.y - (meanVec clip).y| ≤ R + 1 + |(meanVec clip).y| := (abs_sub _ _).trans (by linarith)
    have hwa : |w| = |width / 2| := by rcases hw with rfl | rfl <;> simp
    have hk : (n : ℝ) * |stride| ≤ |n * s * stride + offset + w| + |offset| + |w| := by
      have e1 : |(n : ℝ) * s * stride| = n * |stride| := by
        rw [abs_mul, abs_mul, hs1, mul_one, Nat.abs_cast]
      rw [← e1]
      calc |(n : ℝ) * s * stride| = |(n * s * stride + offset + w) - (offset + w)| := by congr 1; ring
        _ ≤ |n * s * stride + offset + w| + |offset + w| := abs_sub _ _
        _ ≤ |n * s * stride + offset + w| + (|offset| + |w|) := by linarith [abs_add_le offset w]
        _ = _ := by ring
    have := le_max_left B 0
    linarith
  rw [hatchPieces, List.filter_eq_nil_iff]
  intro v hv
  obtain ⟨s, hs, rfl⟩ := List.mem_map.1 hv
  rw [hz s hs]
  simp

/-- What is true of every polygon drawn in some iteration holds of the whole result. -/
theorem hatch_loop (clip : List Vec2) (angle offset stride width : ℝ) (P : List (Option Vec2) → Prop)
    (hP : ∀ i, ∀ v ∈ hatchPieces clip angle offset stride width i, P (hatchSort v))
    (n : Nat) (hn : hatchPieces clip angle offset stride width n = []) :
    ∀ (d i : Nat) (out : List (List (Option Vec2))), i + d = n → (∀ v ∈ out, P v) →
      ∃ r, Returns (hatchStep clip angle offset stride width) (i, out) r ∧ ∀ v ∈ r, P v := by
  have hout : ∀ i (out : List (List (Option Vec2))), (∀ v ∈ out, P v) →
      ∀ v ∈ out ++ (hatchPieces clip angle offset stride width i).map hatchSort, P v := by
    intro i out ho v hv
    rcases List.mem_append.1 hv with h | h
    · exact ho v h
    · obtain ⟨u, hu, rfl⟩ := List.mem_map.1 h
      exact hP i u hu
  intro d
  induction d with
  | zero =>
    rintro i out rfl ho
    exact ⟨out, Returns.of_done (by simp only [Nat.add_zero] at hn; simp [hatchStep, hn]), ho⟩
  | succ d ih =>
    intro i out hi ho
    by_cases he : (hatchPieces clip angle offset stride width i).isEmpty
    · exact ⟨_, Returns.of_done (by simp [hatchStep, he]), hout i out ho⟩
    · obtain ⟨r, hr, hr'⟩ := ih (i + 1) (out ++ (hatchPieces clip angle offset stride width i).map hatchSort)
        (by omega) (hout i out ho)
      exact ⟨r, (Returns.of_step (by simp [hatchStep, he])).2 hr, hr'⟩

theorem hatchSort_perm : ∀ v : List (Option Vec2), (hatchSort v).Perm v := by
  intro v
  unfold hatchSort
  split
  · rename_i h
    have e : (v.filterMap id).map some = v := by
      induction v with
      | nil => rfl
      | cons a v ih =>
        rw [List.all_cons, Bool.and_eq_true] at h
        obtain ⟨b, rfl⟩ := Option.isSome_iff_exists.1 h.1
        rw [List.filterMap_cons]; exact congrArg _ (ih h.2)
    have := (C29_sort (v.filterMap id)).1.map some
    rwa [e] at this
  · exact List.Perm.refl _

/-- C62: hatching a polygon without edges of length zero ends, for every angle, offset, width and stride.  The
result consists of polygons of at least three vertices; every vertex is a number, lies on the line of an edge of
the clipping polygon and within 0.001 of the bounding box of this edge. -/
theorem C62_hatch_partial (clip : List Vec2) (angle offset stride width : ℝ)
    (hne : ∀ e ∈ polyEdges clip, e.1 ≠ e.2) :
    ∃ r, ShapeHatch clip angle offset stride width r ∧ ∀ poly ∈ r, 3 ≤ poly.length ∧
      ∀ v ∈ poly, ∃ q, v = some q ∧ ∃ e ∈ polyEdges clip, OnLine e.1 (e.2.sub e.1) q ∧ NearBox e.1 e.2 q := by
  by_cases hs : stride = 0
  · exact ⟨[], by simp [ShapeHatch, hs], by simp⟩
  obtain ⟨n, hn⟩ := far_empty clip angle offset stride width hs hne
  have hsort := hatchSort_perm
  obtain ⟨r, hr, hr'⟩ := hatch_loop clip angle offset stride width
    (fun poly => 3 ≤ poly.length ∧ ∀ v ∈ poly, ∃ q, v = some q ∧ ∃ e ∈ polyEdges clip,
      OnLine e.1 (e.2.sub e.1) q ∧ NearBox e.1 e.2 q) (by
      intro i v hv
      rw [hatchPieces, List.mem_filter] at hv
      obtain ⟨h1, h2⟩ := hv
      obtain ⟨s, -, rfl⟩ := List.mem_map.1 h1
      refine ⟨by rw [(hsort _).length_eq]; simpa using h2, ?_⟩
      intro v hv
      obtain ⟨q, h3, e, h4, h5, h6, -⟩ := mem_hatchVertices hne ((hsort _).mem_iff.1 hv)
      exact ⟨q, h3, e, h4, h5, h6⟩) n hn n 0 [] (by omega) (by simp)
  exact ⟨r, by rw [ShapeHatch, if_neg hs]; exact hr, hr'⟩

example : ∀ e ∈ polyEdges (pathToPolygon (pathAddRect [] ⟨0, 0, 4, 3⟩)), e.1 ≠ e.2 := by
  have : polyEdges (pathToPolygon (pathAddRect [] ⟨0, 0, 4, 3⟩)) =
    [(⟨0, 0⟩, ⟨0, 0 + 3⟩), (⟨0, 0 + 3⟩, ⟨0 + 4, 0 + 3⟩), (⟨0 + 4, 0 + 3⟩, ⟨0 + 4, 0⟩), (⟨0 + 4, 0⟩, ⟨0, 0⟩)] := rfl
  rw [this]
  intro e he
  simp only [List.mem_cons, List.not_mem_nil, or_false] at he
  rcases he with rfl | rfl | rfl | rfl <;> simp

/-- C62 (violated by the code): an edge of length zero puts points that are not numbers into every line drawn. -/
theorem C62_nan_vertex (clip : List Vec2) (angle offset width k : ℝ) (s : Vec2) (h : (s, s) ∈ polyEdges clip) :
    none ∈ hatchVertices clip angle offset width k := by
  apply List.mem_append_left
  exact List.mem_filterMap.2 ⟨(s, s), h, degenerate_edge _ _ _⟩

example : ((⟨1, 1⟩ : Vec2), (⟨1, 1⟩ : Vec2)) ∈ polyEdges [⟨1, 1⟩, ⟨5, 1⟩, ⟨5, 5⟩, ⟨1, 1⟩] := by
  have : polyEdges [(⟨1, 1⟩ : Vec2), ⟨5, 1⟩, ⟨5, 5⟩, ⟨1, 1⟩] =
    [(⟨1, 1⟩, ⟨5, 1⟩), (⟨5, 1⟩, ⟨5, 5⟩), (⟨5, 5⟩, ⟨1, 1⟩), (⟨1, 1⟩, ⟨1, 1⟩)] := rfl
  rw [this]; simp

/-- The rounds of the loop. -/
theorem hatch_rounds (clip : List Vec2) (angle offset stride width : ℝ) (n : Nat)
    (hn : hatchPieces clip angle offset stride width n = [])
    (hlt : ∀ j < n, hatchPieces clip angle offset stride width j ≠ []) :
    ∀ (d i : Nat) (out : List (List (Option Vec2))), i + d = n →
      Returns (hatchStep clip angle offset stride width) (i, out)
        (out ++ (List.range' i d).flatMap fun j => (hatchPieces clip angle offset stride width j).map hatchSort) := by
  intro d
  induction d with
  | zero =>
    rintro i out rfl
    refine Returns.of_done ?_
    simp only [Nat.add_zero] at hn
    simp [hatchStep, hn]
  | succ d ih =>
    intro i out hi
    have he := hlt i (by omega)
    refine (Returns.of_step (s' := (i + 1, out ++ (hatchPieces clip angle offset stride width i).map hatchSort)) (by
      simp [hatchStep, he])).2 ?_
    have := ih (i + 1) (out ++ (hatchPieces clip angle offset stride width i).map hatchSort) (by omega)
    rw [List.range'_succ, List.flatMap_cons]
    simpa [List.append_assoc] using this

theorem mem_pieces (clip : List Vec2) (angle offset stride width : ℝ) (n : Nat) (v : List (Option Vec2)) :
    v ∈ hatchPieces clip angle offset stride width n ↔
      3 ≤ v.length ∧ ∃ i : ℤ, |i| = n ∧ v = hatchVertices clip angle offset width (i * stride) := by
  rw [hatchPieces, List.mem_filter, List.mem_map]
  simp only [decide_eq_true_eq]
  rw [and_comm]
  apply and_congr_right
  intro _
  constructor
  · rintro ⟨s, hs, rfl⟩
    unfold hatchSigns at hs
    split at hs
    · rename_i h0
      subst h0
      exact ⟨0, by simp, by simp⟩
    · simp only [List.mem_cons, List.not_mem_nil, or_false] at hs
      rcases hs with rfl | rfl
      · exact ⟨-n, by simp, by push_cast; congr 1; ring⟩
      · exact ⟨n, by simp, by push_cast; congr 1; ring⟩
  · rintro ⟨i, hi, rfl⟩
    unfold hatchSigns
    rcases abs_eq (by positivity : (0 : ℤ) ≤ n) |>.1 hi with rfl | rfl
    · by_cases h0 : n = 0
      · subst h0; exact ⟨0, by simp, by simp⟩
      · exact ⟨1, by simp [h0], by push_cast; congr 1; ring⟩
    · by_cases h0 : n = 0
      · subst h0; exact ⟨0, by simp, by simp⟩
      · exact ⟨-1, by simp [h0], by push_cast; congr 1; ring⟩

/-- C62: the stripes are parallel, in the direction of the angle; the middle of stripe `i` has the distance
`offset + i * stride` from the centre of the shape, and its two borders are half the width away from it.  All stripes
that cross the shape are drawn, from the centre outwards in both directions up to the first distance at which none
does; nothing else is drawn. -/
theorem C62_stripes_partial (clip : List Vec2) (angle offset stride width : ℝ) (hs : stride ≠ 0)
    (hne : ∀ e ∈ polyEdges clip, e.1 ≠ e.2) :
    ∃ r, ∃ n : ℕ, ∃ stripe : ℤ → List (Option Vec2), ShapeHatch clip angle offset stride width r ∧
      (∀ i, ∀ v ∈ stripe i, ∃ q, v = some q ∧ ∃ e ∈ polyEdges clip, OnLine e.1 (e.2.sub e.1) q ∧ NearBox e.1 e.2 q ∧
        ∃ w, (w = width / 2 ∨ w = -(width / 2)) ∧
          OnLine ((meanVec clip).add ((fromDeg (angle + 90)).scale (i * stride + offset + w))) (fromDeg angle) q) ∧
      (∀ (i : ℤ) q, ∀ e ∈ polyEdges clip, ∀ w, (w = width / 2 ∨ w = -(width / 2)) → intersectLineSeg
        ((meanVec clip).add ((fromDeg (angle + 90)).scale (i * stride + offset + w))) (fromDeg angle) e.1 e.2 = some (some q) →
        some q ∈ stripe i) ∧
      (∀ i : ℤ, |i| < n → 3 ≤ (stripe i).length → ∃ poly ∈ r, poly.Perm (stripe i)) ∧
      (∀ i : ℤ, |i| = n → (stripe i).length < 3) ∧
      (∀ poly ∈ r, ∃ i : ℤ, |i| < n ∧ poly.Perm (stripe i)) := by
  classical
  have hex := far_empty clip angle offset stride width hs hne
  have hn := Nat.find_spec hex
  have hlt : ∀ j < Nat.find hex, hatchPieces clip angle offset stride width j ≠ [] := fun j hj => Nat.find_min hex hj
  generalize Nat.find hex = n at hn hlt
  have hr := hatch_rounds clip angle offset stride width n hn hlt n 0 [] (by omega)
  refine ⟨_, n, fun i => hatchVertices clip angle offset width (i * stride), by rw [ShapeHatch, if_neg hs]; exact hr,
    fun i v hv => mem_hatchVertices hne hv, ?_, ?_, ?_, ?_⟩
  · intro i q e he w hw hq
    rcases hw with rfl | rfl
    · refine List.mem_append_left _ (List.mem_filterMap.2 ⟨e, he, ?_⟩)
      rw [← hq]; congr 5; ring
    · refine List.mem_append_right _ (List.mem_filterMap.2 ⟨e, he, ?_⟩)
      rw [← hq]; congr 5; ring
  · intro i hi h3
    refine ⟨hatchSort _, ?_, hatchSort_perm _⟩
    rw [List.nil_append, List.mem_flatMap]
    refine ⟨i.natAbs, ?_, List.mem_map_of_mem ((mem_pieces _ _ _ _ _ _ _).2 ⟨h3, i, by simp, rfl⟩)⟩
    rw [List.mem_range'_1]
    rw [Int.abs_eq_natAbs] at hi
    omega
  · intro i hi
    by_contra h
    have := (mem_pieces clip angle offset stride width n _).2 ⟨not_lt.1 h, i, hi, rfl⟩
    rw [hn] at this
    simp at this
  · intro poly hp
    rw [List.nil_append, List.mem_flatMap] at hp
    obtain ⟨j, hj, hp⟩ := hp
    obtain ⟨v, hv, rfl⟩ := List.mem_map.1 hp
    obtain ⟨-, i, hi, rfl⟩ := (mem_pieces _ _ _ _ _ _ _).1 hv
    rw [List.mem_range'_1] at hj
    exact ⟨i, by rw [hi]; omega, hatchSort_perm _⟩

/-- C62 (violated by the code): with a large offset nothing is drawn at all, whatever the stride, although the stripes of
the offsets `o` and `o + stride` are the same. -/
theorem C62_offset_empty (clip : List Vec2) (angle width : ℝ) (hne : ∀ e ∈ polyEdges clip, e.1 ≠ e.2) :
    (∃ B, ∀ offset stride, B < |offset| → ShapeHatch clip angle offset stride width []) ∧
    ∀ offset stride (i : ℤ), hatchVertices clip angle (offset + stride) width (i * stride) =
      hatchVertices clip angle offset width ((i + 1 : ℤ) * stride) := by
  constructor
  · obtain ⟨R, hR⟩ := bounded clip
    refine ⟨(R + 1 + |(meanVec clip).x|) + (R + 1 + |(meanVec clip).y|) + |width / 2|, ?_⟩
    intro offset stride hB
    by_cases hs : stride = 0
    · simp [ShapeHatch, hs]
    rw [ShapeHatch, if_neg hs]
    refine Returns.of_done ?_
    have hz : hatchVertices clip angle offset width 0 = [] := by
      rw [List.eq_nil_iff_forall_not_mem]
      intro v hv
      obtain ⟨q, -, e, he, -, hnear, w, hw, hon⟩ := mem_hatchVertices hne hv
      obtain ⟨m1, m2⟩ := mem_polyEdges he
      obtain ⟨r1, r2⟩ := hR _ m1
      obtain ⟨r3, r4⟩ := hR _ m2
      have hd := ortho_dist hon
      obtain ⟨b1, b2, b3, b4⟩ := hnear
      rw [abs_le] at r1 r2 r3 r4
      have qx : |q.x| ≤ R + 1 := by
        apply abs_le.2
        constructor
        · have : -R ≤ min e.1.x e.2.x := le_min r1.1 r3.1
          linarith
        · have : max e.1.x e.2.x ≤ R := max_le r1.2 r3.2
          linarith
      have qy : |q.y| ≤ R + 1 := by
        apply abs_le.2
        constructor
        · have : -R ≤ min e.1.y e.2.y := le_min r2.1 r4.1
          linarith
        · have : max e.1.y e.2.y ≤ R := max_le r2.2 r4.2
          linarith
      have d1 : |q.x - (meanVec clip).x| ≤ R + 1 + |(meanVec clip).x| := (abs_sub _ _).trans (by linarith)
      have d2 : |q.y - (meanVec clip).y| ≤ R + 1 + |(meanVec clip).y| := (abs_sub _ _).trans (by linarith)
      have hwa : |w| = |width / 2| := by rcases hw with rfl | rfl <;> simp
      have : |offset| ≤ |0 + offset + w| + |w| := by
        calc |offset| = |(0 + offset + w) - w| := by congr 1; ring
          _ ≤ _ := abs_sub _ _
      linarith
    have hp : hatchPieces clip angle offset stride width 0 = [] := by
      simp [hatchPieces, hatchSigns, hz]
    simp [hatchStep, hp]
  · intro offset stride i
    have : (i : ℝ) * stride + (offset + stride) = ((i + 1 : ℤ) : ℝ) * stride + offset := by push_cast; ring
    simp only [hatchVertices, this]

end
end Clip
