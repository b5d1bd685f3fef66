import Verif.Spec.Markers
import Verif.Props.PlotElements
/-!
# Property C66: marker shapes
-/
set_option linter.unusedSimpArgs false
namespace Clip
noncomputable section
open PlotSpec

/-- C66 (violated by the code): a list of marker shapes is never accepted, whatever it contains. -/
theorem C66_shape_lists_refused (toFloat : Expr → Option ℝ) (args : List Expr) :
    markerConfigureList toFloat args = none := by
  unfold markerConfigureList
  split
  · split
    · simp [markerConfigureEach, markerConfigure, Expr.isValue]
    · simp [markerConfigure, Expr.isValue]
  · rfl

/-- C66: a single shape name of the table selects the character listed for it. -/
theorem C66_named_shapes (toFloat : Expr → Option ℝ) (rest : List Expr) :
    ∀ p ∈ unicodeMarkers, markerConfigure toFloat (.literal p.1 :: rest) = some (.unicode p.2) := by
  have hnd : (unicodeMarkers.map (·.1)).Nodup := by decide
  have hno : ∀ p ∈ unicodeMarkers, p.1 ≠ "circle".toList ∧ p.1 ≠ "circle-o".toList ∧ p.1 ≠ "custom".toList := by
    decide
  have hfind : ∀ (l : List (Str × Str)), (l.map (·.1)).Nodup → ∀ p ∈ l, findMarker p.1 l = some p.2 := by
    intro l
    induction l with
    | nil => simp
    | cons q l ih =>
      intro hn p hp
      obtain ⟨k, v⟩ := q
      simp only [List.map_cons, List.nodup_cons] at hn
      rcases List.mem_cons.1 hp with rfl | hp'
      · simp [findMarker]
      · have : k ≠ p.1 := by
          rintro rfl
          exact hn.1 (List.mem_map_of_mem hp')
        simp [findMarker, this, ih hn.2 p hp']
  intro p hp
  have h := hno p hp
  simp only [markerConfigure, Expr.isValue, Expr.getValue, Bool.true_and, beq_iff_eq, h.1, h.2.1, h.2.2, if_false,
    if_true]
  simp [hfind _ hnd p hp]

/-- C66: a text that names no shape is refused. -/
theorem C66_unknown_shape (toFloat : Expr → Option ℝ) (rest : List Expr) (s : Str)
    (h1 : s ∉ unicodeMarkers.map (·.1)) (h2 : s ≠ "circle".toList) (h3 : s ≠ "circle-o".toList)
    (h4 : s ≠ "custom".toList) : markerConfigure toFloat (.literal s :: rest) = none := by
  have : ∀ l : List (Str × Str), s ∉ l.map (·.1) → findMarker s l = none := by
    intro l
    induction l with
    | nil => intro _; rfl
    | cons q l ih =>
      intro hn
      obtain ⟨k, v⟩ := q
      simp only [List.map_cons, List.mem_cons, not_or] at hn
      simp [findMarker, ih hn.2, Ne.symm hn.1]
  simp only [markerConfigure, Expr.isValue, Expr.getValue, Bool.true_and, beq_iff_eq, h2, h3, h4, if_false, if_true]
  simp [this _ h1]

example : "star".toList ∉ unicodeMarkers.map (·.1) := by decide

/-- C66: disks and circles are circles of diameter `size` around the point; the border of a circle is at most half
the size wide. -/
theorem C66_circles (toFloat : Expr → Option ℝ) (pos : Vec2) (size b : ℝ) (e : Expr) (hb : toFloat e = some b)
    (hs : 0 ≤ size) :
    (∃ m, markerConfigure toFloat [.literal "circle".toList] = some m ∧
      markerDraw m pos size = .filled (pathAddCircle [] pos (size / 2))) ∧
    (∃ m w, markerConfigure toFloat [.literal "circle-o".toList, e] = some m ∧
      markerDraw m pos size = .stroked (pathAddCircle [] pos (size / 2)) w ∧ 0 ≤ w ∧ w ≤ size / 2 ∧
      (0 ≤ b → b ≤ 1 → w = size * b / 2)) := by
  have h5 : size * 0.5 = size / 2 := by ring
  constructor
  · exact ⟨.disk, by simp [markerConfigure, Expr.isValue, Expr.getValue], by simp only [markerDraw, h5]⟩
  · have hc := clamp01_mem b
    refine ⟨markerCircle b, size * clamp01 b * 0.5, by simp [markerConfigure, Expr.isValue, Expr.getValue, hb],
      by simp only [markerDraw, markerCircle, h5], ?_, ?_, ?_⟩
    · have := mul_nonneg hs hc.1; linarith
    · nlinarith [mul_nonneg hs (sub_nonneg.2 hc.2.1)]
    · intro h0 h1
      rw [hc.2.2 h0 h1]; ring

example : ∃ (f : Expr → Option ℝ) (e : Expr), f e = some 0.5 := ⟨fun _ => some 0.5, .literal [], rfl⟩

/-- C66 (violated by the code): the triangles pointing left and up look the same. -/
theorem C66_triangles_confused (toFloat : Expr → Option ℝ) :
    markerConfigure toFloat [.literal "triangle-left-o".toList] =
      markerConfigure toFloat [.literal "triangle-top-o".toList] := by
  rw [C66_named_shapes toFloat [] ("triangle-left-o".toList, ['\u25b3']) (by decide),
    C66_named_shapes toFloat [] ("triangle-top-o".toList, ['\u25b3']) (by decide)]

theorem clamp01_max (b : ℝ) : clamp01 b = max 0 (min 1 b) := by
  unfold clamp01
  split
  · rename_i h; rw [max_eq_left]; exact le_trans (min_le_right _ _) h.le
  · split
    · rename_i h1 h; rw [min_eq_left h.le]; norm_num
    · rename_i h1 h2
      rw [min_eq_right (by linarith), max_eq_right (by linarith)]

theorem markerIsWord_iff (e : Expr) (w : Str) : Markers.IsWord e w ↔ e.isValue = true ∧ e.getValue = w := by
  cases e <;> simp [Markers.IsWord, Expr.isValue, Expr.getValue]

theorem findMarker_iff (l : List (Str × Str)) (hn : (l.map (·.1)).Nodup) (k v : Str) :
    findMarker k l = some v ↔ (k, v) ∈ l := by
  induction l with
  | nil => simp [findMarker]
  | cons q l ih =>
    obtain ⟨k', v'⟩ := q
    simp only [List.map_cons, List.nodup_cons] at hn
    by_cases h : k' = k
    · subst h
      have : (k', v) ∉ l := fun hm => hn.1 (List.mem_map_of_mem (f := (·.1)) hm)
      simp [findMarker, this, eq_comm]
    · simp [findMarker, h, ih hn.2, Ne.symm h]

/-- The table of the code and the table of the specification, but for the triangle that points left. -/
theorem glyphShapes_table : ∀ k v, k ≠ "triangle-left-o".toList →
    ((k, v) ∈ unicodeMarkers ↔ ∃ w c, (w, c) ∈ Markers.glyphShapes ∧ k = w.toList ∧ v = [c]) := by
  have h1 : ∀ p ∈ unicodeMarkers, p.1 = "triangle-left-o".toList ∨
      p ∈ Markers.glyphShapes.map (fun q => (q.1.toList, [q.2])) := by decide +kernel
  have h2 : ∀ q ∈ Markers.glyphShapes, q.1.toList = "triangle-left-o".toList ∨ (q.1.toList, [q.2]) ∈ unicodeMarkers := by
    decide +kernel
  intro k v hk
  constructor
  · intro h
    rcases h1 _ h with h | h
    · exact absurd h hk
    · obtain ⟨⟨w, c⟩, hm, he⟩ := List.mem_map.1 h
      simp only [Prod.mk.injEq] at he
      exact ⟨w, c, hm, he.1.symm, he.2.symm⟩
  · rintro ⟨w, c, hm, rfl, rfl⟩
    rcases h2 _ hm with h | h
    · exact absurd h hk
    · exact h

/-- C66: a marker description is accepted exactly if it is one of the documented forms, and then the marker looks as
documented, at every point and in every size; but for `triangle-left-o` (see `C66_triangles_confused`). -/
theorem C66_looks_partial (toFloat : Expr → Option ℝ) (args : List Expr) (look : Vec2 → ℝ → MarkerDrawing)
    (hne : ∀ e rest, args = e :: rest → ¬ Markers.IsWord e "triangle-left-o".toList) :
    (∃ m, markerConfigure toFloat args = some m ∧ markerDraw m = look) ↔ Markers.Looks toFloat args look := by
  have hnd : (unicodeMarkers.map (·.1)).Nodup := by decide
  have hno : ∀ p ∈ unicodeMarkers, p.1 ≠ "circle".toList ∧ p.1 ≠ "circle-o".toList ∧ p.1 ≠ "custom".toList := by
    decide
  have ddisk : markerDraw .disk = fun pos size => .filled (pathAddCircle [] pos (size / 2)) := by
    funext pos size
    rw [markerDraw, show size * 0.5 = size / 2 by ring]
  have dcircle : ∀ b, markerDraw (markerCircle b) =
      fun pos size => .stroked (pathAddCircle [] pos (size / 2)) (size / 2 * max 0 (min 1 b)) := by
    intro b
    funext pos size
    rw [markerCircle, markerDraw, clamp01_max, show size * 0.5 = size / 2 by ring]
    congr 1; ring
  have dcircle' : markerDraw (markerCircle 0.2) =
      fun pos size => .stroked (pathAddCircle [] pos (size / 2)) (size / 10) := by
    rw [dcircle]
    funext pos size
    congr 1
    norm_num
    ring
  have duni : ∀ u, markerDraw (.unicode u) = fun pos size => .text u pos .center .center (6 / 5 * size) := by
    intro u
    funext pos size
    rw [markerDraw]
    congr 1; ring
  constructor
  · rintro ⟨m, h, rfl⟩
    unfold markerConfigure at h
    cases args with
    | nil => cases h
    | cons e rest =>
      have isw : ∀ w : Str, (e.isValue && e.getValue == w) = true → Markers.IsWord e w := fun w h => by
        rw [markerIsWord_iff]; simpa using h
      dsimp only at h
      split at h
      · rename_i hw; cases h; rw [ddisk]; exact .disk (isw _ hw)
      split at h
      · rename_i hw
        cases rest with
        | nil => cases h; rw [dcircle']; exact .circle (isw _ hw)
        | cons b rest =>
          simp only [Option.map_eq_some_iff] at h
          obtain ⟨v, hv, rfl⟩ := h
          rw [dcircle]; exact .circleBorder (isw _ hw) hv
      split at h
      · rename_i hw
        cases rest with
        | nil => cases h
        | cons t rest =>
          simp only at h
          split at h
          · rename_i ht; cases h; rw [duni]; exact .custom (isw _ hw) ((markerIsWord_iff _ _).2 ⟨ht, rfl⟩)
          · cases h
      split at h
      · rename_i hv
        simp only [Option.map_eq_some_iff] at h
        obtain ⟨u, hu, rfl⟩ := h
        rw [findMarker_iff _ hnd] at hu
        have hw := (markerIsWord_iff e e.getValue).2 ⟨hv, rfl⟩
        obtain ⟨w, c, hm, he, rfl⟩ := (glyphShapes_table _ _ (by
          intro h; rw [h] at hw; exact hne e rest rfl hw)).1 hu
        rw [duni]
        exact .glyph hm (he ▸ hw)
      · cases h
  · intro h
    cases h with
    | disk hw =>
      obtain ⟨h1, h2⟩ := (markerIsWord_iff _ _).1 hw
      exact ⟨.disk, by unfold markerConfigure; simp only [h1, h2]; rfl, ddisk⟩
    | circle hw =>
      obtain ⟨h1, h2⟩ := (markerIsWord_iff _ _).1 hw
      exact ⟨_, by unfold markerConfigure; simp only [h1, h2]; rfl, dcircle'⟩
    | @circleBorder e b rest v hw hv =>
      obtain ⟨h1, h2⟩ := (markerIsWord_iff _ _).1 hw
      refine ⟨markerCircle v, ?_, dcircle v⟩
      unfold markerConfigure
      simp only [h1, h2, hv]
      rfl
    | custom hw ht =>
      obtain ⟨h1, h2⟩ := (markerIsWord_iff _ _).1 hw
      obtain ⟨h3, rfl⟩ := (markerIsWord_iff _ _).1 ht
      refine ⟨.unicode _, ?_, duni _⟩
      unfold markerConfigure
      simp only [h1, h2, h3]
      rfl
    | @glyph e rest w c hm hw =>
      obtain ⟨h1, h2⟩ := (markerIsWord_iff _ _).1 hw
      have hk : w.toList ≠ "triangle-left-o".toList := fun h => hne e rest rfl (h ▸ hw)
      have hu := (glyphShapes_table _ _ hk).2 ⟨w, c, hm, rfl, rfl⟩
      obtain ⟨n1, n2, n3⟩ := hno _ hu
      rw [← findMarker_iff _ hnd] at hu
      refine ⟨.unicode [c], ?_, duni _⟩
      unfold markerConfigure
      simp only [Bool.and_eq_true, beq_iff_eq, h1, h2, true_and]
      rw [if_neg n1, if_neg n2, if_neg n3, if_pos trivial, hu]
      rfl

example : Markers.Looks (fun _ => some 0.5) [.literal "circle-o".toList, .literal []]
    (fun pos size => .stroked (pathAddCircle [] pos (size / 2)) (size / 2 * max 0 (min 1 0.5))) :=
  .circleBorder (.inl rfl) rfl

end
end Clip
