import Verif.Props.LegendPicture
/-!
# C95: items of a legend do not overlap, and stay inside it
-/
namespace Clip
open LegendSpec Elements Pictures PlotSpec AxisSpec
set_option linter.unusedSimpArgs false
noncomputable section
variable {φ : Type}

theorem runLength_le_next {pad : ℝ} (hp : 0 ≤ pad) (ls : List ℝ) : runLength pad ls ≤ LegendSpec.next pad ls := by
  unfold LegendSpec.next
  split_ifs <;> linarith

theorem runLength_le_append {pad : ℝ} (hp : 0 ≤ pad) (ls ms : List ℝ) (h : ∀ l ∈ ms, 0 ≤ l) :
    runLength pad ls ≤ runLength pad (ls ++ ms) := by
  induction ms generalizing ls with
  | nil => simp
  | cons m ms ih =>
    have h1 := ih (ls ++ [m]) fun l hl => h l (List.mem_cons_of_mem _ hl)
    rw [runLength_snoc] at h1
    have h2 := runLength_le_next hp ls
    have h3 := h m (by simp)
    rw [List.append_assoc] at h1
    simp only [List.singleton_append] at h1
    linarith

theorem runLength_nonneg {pad : ℝ} (hp : 0 ≤ pad) (ls : List ℝ) (h : ∀ l ∈ ls, 0 ≤ l) : 0 ≤ runLength pad ls := by
  have := runLength_le_append hp [] ls h
  simpa [runLength] using this

theorem runLength_take {pad : ℝ} (hp : 0 ≤ pad) (ls : List ℝ) (h : ∀ l ∈ ls, 0 ≤ l) {i j : Nat} (hij : i ≤ j) :
    runLength pad (ls.take i) ≤ runLength pad (ls.take j) := by
  obtain ⟨k, rfl⟩ := Nat.exists_eq_add_of_le hij
  rw [List.take_add]
  exact runLength_le_append hp _ _ fun l hl => h l (List.mem_of_mem_drop (List.mem_of_mem_take hl))

/-- Where entry `i` ends. -/
theorem next_add {pad : ℝ} (ls : List ℝ) {i : Nat} (h : i < ls.length) :
    LegendSpec.next pad (ls.take i) + ls[i] = runLength pad (ls.take (i + 1)) := by
  rw [← runLength_snoc, List.take_append_getElem]

theorem foldl_max_ge (ls : List ℝ) : ∀ a, a ≤ ls.foldl max a ∧ ∀ l ∈ ls, l ≤ ls.foldl max a := by
  induction ls with
  | nil => intro a; simp
  | cons m ms ih =>
    intro a
    obtain ⟨h1, h2⟩ := ih (max a m)
    refine ⟨le_trans (le_max_left a m) h1, ?_⟩
    intro l hl
    rcases List.mem_cons.1 hl with rfl | hl
    · exact le_trans (le_max_right a l) h1
    · exact h2 l hl

theorem greatest_ge {ls : List ℝ} {l : ℝ} (h : l ∈ ls) : l ≤ greatest ls := (foldl_max_ge ls 0).2 l h
theorem greatest_nonneg (ls : List ℝ) : 0 ≤ greatest ls := (foldl_max_ge ls 0).1

theorem greatest_le {ls : List ℝ} {a : ℝ} (ha : 0 ≤ a) (h : ∀ l ∈ ls, l ≤ a) : greatest ls ≤ a := by
  unfold greatest
  have : ∀ b, b ≤ a → ls.foldl max b ≤ a := by
    induction ls with
    | nil => intro b hb; exact hb
    | cons m ms ih =>
      intro b hb
      exact ih (fun l hl => h l (List.mem_cons_of_mem _ hl)) _ (max_le hb (h m (by simp)))
  exact this 0 ha

/-- Left of, or above. -/
def Before (a b : Rect) : Prop := a.x + a.w ≤ b.x ∨ a.y + a.h ≤ b.y

/-- Inside of the size `w`, `h`. -/
def FitsIn (w h : ℝ) (b : Rect) : Prop := 0 ≤ b.x ∧ b.x + b.w ≤ w ∧ 0 ≤ b.y ∧ b.y + b.h ≤ h

/-! ## One below the other -/

theorem stacked_before {pad : ℝ} (hp : 0 ≤ pad) {sizes : List (ℝ × ℝ)} (hs : ∀ e ∈ sizes, 0 ≤ e.1 ∧ 0 ≤ e.2)
    {boxes : List Rect} {w h : ℝ} (hb : Stacked pad sizes boxes w h) : boxes.Pairwise Before := by
  obtain ⟨rfl, -, -⟩ := hb
  rw [List.pairwise_iff_getElem]
  intro i j hi hj hij
  right
  simp only [List.length_mapIdx] at hi hj
  simp only [List.getElem_mapIdx]
  have hn : ∀ l ∈ sizes.map (·.2), 0 ≤ l := by
    intro l hl
    obtain ⟨e, he, rfl⟩ := List.mem_map.1 hl
    exact (hs e he).2
  have h1 := next_add (pad := pad) (sizes.map (·.2)) (i := i) (by simpa using hi)
  have h2 := runLength_take hp _ hn (i := i + 1) (j := j) (by omega)
  have h3 := runLength_le_next hp ((sizes.map (·.2)).take j)
  simp only [List.getElem_map] at h1
  simp only [List.map_take]
  linarith

theorem stacked_fits {pad : ℝ} (hp : 0 ≤ pad) {sizes : List (ℝ × ℝ)} (hs : ∀ e ∈ sizes, 0 ≤ e.1 ∧ 0 ≤ e.2)
    {boxes : List Rect} {w h : ℝ} (hb : Stacked pad sizes boxes w h) : ∀ b ∈ boxes, FitsIn w h b := by
  obtain ⟨rfl, rfl, rfl⟩ := hb
  intro b hb
  obtain ⟨i, hi, rfl⟩ := List.mem_mapIdx.1 hb
  have hn : ∀ l ∈ sizes.map (·.2), 0 ≤ l := by
    intro l hl
    obtain ⟨e, he, rfl⟩ := List.mem_map.1 hl
    exact (hs e he).2
  have h1 := next_add (pad := pad) (sizes.map (·.2)) (i := i) (by simpa using hi)
  have h2 := runLength_take hp _ hn (i := i + 1) (j := sizes.length) (by omega)
  have h3 := runLength_le_next hp ((sizes.map (·.2)).take i)
  have h4 := runLength_nonneg hp ((sizes.map (·.2)).take i) fun l hl => hn l (List.mem_of_mem_take hl)
  have h5 : (sizes.map (·.2)).take sizes.length = sizes.map (·.2) := List.take_of_length_le (by simp)
  rw [h5] at h2
  simp only [List.getElem_map] at h1
  refine ⟨le_refl _, ?_, ?_, ?_⟩
  · simp only [zero_add]
    exact greatest_ge (List.mem_map_of_mem (List.getElem_mem hi))
  · simp only [List.map_take]; linarith
  · simp only [List.map_take]; linarith

/-! ## In rows -/

theorem rowBoxes_before {pad : ℝ} (hp : 0 ≤ pad) {row : List (ℝ × ℝ)} (hs : ∀ e ∈ row, 0 ≤ e.1 ∧ 0 ≤ e.2) (y : ℝ) :
    (rowBoxes pad y row).Pairwise Before := by
  rw [List.pairwise_iff_getElem]
  intro i j hi hj hij
  left
  unfold rowBoxes at hi hj ⊢
  simp only [List.length_mapIdx] at hi hj
  simp only [List.getElem_mapIdx]
  have hn : ∀ l ∈ row.map (·.1), 0 ≤ l := by
    intro l hl
    obtain ⟨e, he, rfl⟩ := List.mem_map.1 hl
    exact (hs e he).1
  have h1 := next_add (pad := pad) (row.map (·.1)) (i := i) (by simpa using hi)
  have h2 := runLength_take hp _ hn (i := i + 1) (j := j) (by omega)
  have h3 := runLength_le_next hp ((row.map (·.1)).take j)
  simp only [List.getElem_map] at h1
  simp only [List.map_take]
  linarith

theorem rowBoxes_mem {pad y : ℝ} {row : List (ℝ × ℝ)} {b : Rect} (hb : b ∈ rowBoxes pad y row) :
    b.y = y ∧ b.h = rowHeight row ∧ ∃ i, ∃ hi : i < row.length, b.x = LegendSpec.next pad ((row.map (·.1)).take i) ∧
      b.x + b.w = runLength pad ((row.map (·.1)).take (i + 1)) := by
  obtain ⟨i, hi, rfl⟩ := List.mem_mapIdx.1 hb
  refine ⟨rfl, rfl, i, hi, ?_, ?_⟩
  · simp [List.map_take]
  · have h1 := next_add (pad := pad) (row.map (·.1)) (i := i) (by simpa using hi)
    simp only [List.getElem_map] at h1
    simp only [List.map_take]
    exact h1

theorem rowHeight_nonneg (row : List (ℝ × ℝ)) : 0 ≤ rowHeight row := greatest_nonneg _

theorem sum_rows_nonneg {rowPad : ℝ} (hp : 0 ≤ rowPad) (rows : List (List (ℝ × ℝ))) :
    0 ≤ (rows.map fun r => rowHeight r + rowPad).sum := by
  apply List.sum_nonneg
  intro x hx
  obtain ⟨r, -, rfl⟩ := List.mem_map.1 hx
  have := rowHeight_nonneg r
  linarith

theorem boxesOf_below {rowPad colPad : ℝ} (hr : 0 ≤ rowPad) (rows : List (List (ℝ × ℝ))) :
    ∀ b ∈ boxesOf rowPad colPad rows, 0 ≤ b.y ∧
      b.y + b.h + rowPad ≤ (rows.map fun r => rowHeight r + rowPad).sum := by
  induction rows using List.reverseRecOn with
  | nil => intro b hb; simp [boxesOf] at hb
  | append_singleton rows r ih =>
    intro b hb
    rw [boxesOf_snoc] at hb
    simp only [List.map_append, List.sum_append, List.map_cons, List.map_nil, List.sum_cons, List.sum_nil]
    have h0 := rowHeight_nonneg r
    rcases List.mem_append.1 hb with hb | hb
    · obtain ⟨h1, h2⟩ := ih b hb
      exact ⟨h1, by linarith⟩
    · obtain ⟨h1, h2, -⟩ := rowBoxes_mem hb
      rw [h1, h2]
      exact ⟨sum_rows_nonneg hr rows, by linarith⟩

theorem boxesOf_before {rowPad colPad : ℝ} (hr : 0 ≤ rowPad) (hc : 0 ≤ colPad) (rows : List (List (ℝ × ℝ)))
    (hs : ∀ row ∈ rows, ∀ e ∈ row, 0 ≤ e.1 ∧ 0 ≤ e.2) : (boxesOf rowPad colPad rows).Pairwise Before := by
  induction rows using List.reverseRecOn with
  | nil => simp [boxesOf]
  | append_singleton rows r ih =>
    rw [boxesOf_snoc, List.pairwise_append]
    refine ⟨ih fun row hrow => hs row (by simp [hrow]), rowBoxes_before hc (hs r (by simp)) _, ?_⟩
    intro a ha b hb
    right
    have h1 := (boxesOf_below hr rows a ha).2
    rw [(rowBoxes_mem hb).1]
    linarith

theorem flowing_before {rowPad colPad width : ℝ} (hr : 0 ≤ rowPad) (hc : 0 ≤ colPad) {sizes : List (ℝ × ℝ)}
    (hs : ∀ e ∈ sizes, 0 ≤ e.1 ∧ 0 ≤ e.2) {boxes : List Rect} {w h : ℝ}
    (hb : Flowing rowPad colPad width sizes boxes w h) : boxes.Pairwise Before := by
  obtain ⟨rows, rfl, -, rfl, -, -⟩ := hb
  exact boxesOf_before hr hc rows fun row hrow e he => hs e (List.mem_flatten.2 ⟨row, hrow, he⟩)

theorem boxesOf_mem {rowPad colPad : ℝ} {rows : List (List (ℝ × ℝ))} {b : Rect} (hb : b ∈ boxesOf rowPad colPad rows) :
    ∃ row ∈ rows, ∃ i, i < row.length ∧ b.x = LegendSpec.next colPad ((row.map (·.1)).take i) ∧
      b.x + b.w = runLength colPad ((row.map (·.1)).take (i + 1)) := by
  unfold boxesOf at hb
  obtain ⟨l, hl, hb⟩ := List.mem_flatten.1 hb
  obtain ⟨k, hk, rfl⟩ := List.mem_mapIdx.1 hl
  obtain ⟨-, -, i, hi, h1, h2⟩ := rowBoxes_mem hb
  exact ⟨rows[k], List.getElem_mem hk, i, hi, h1, h2⟩

theorem flowing_fits {rowPad colPad width : ℝ} (hr : 0 ≤ rowPad) (hc : 0 ≤ colPad) {sizes : List (ℝ × ℝ)}
    (hs : ∀ e ∈ sizes, 0 ≤ e.1 ∧ 0 ≤ e.2) {boxes : List Rect} {w h : ℝ}
    (hb : Flowing rowPad colPad width sizes boxes w h) : ∀ b ∈ boxes, FitsIn w h b := by
  obtain ⟨rows, rfl, -, rfl, rfl, rfl⟩ := hb
  intro b hb
  obtain ⟨h1, h2⟩ := boxesOf_below (colPad := colPad) hr rows b hb
  obtain ⟨row, hrow, i, hi, h3, h4⟩ := boxesOf_mem hb
  refine ⟨?_, greatest_ge (List.mem_map_of_mem (f := fun b : Rect => b.x + b.w) hb), h1, ?_⟩
  · rw [h3]
    refine le_trans ?_ (runLength_le_next hc _)
    apply runLength_nonneg hc
    intro l hl
    obtain ⟨e, he, rfl⟩ := List.mem_map.1 (List.mem_of_mem_take hl)
    exact (hs e (List.mem_flatten.2 ⟨row, hrow, he⟩)).1
  · have : ∀ l : List (List (ℝ × ℝ)), (l.map fun r => LegendSpec.rowHeight r + rowPad).sum =
        (l.map LegendSpec.rowHeight).sum + rowPad * l.length := by
      intro l
      induction l with
      | nil => simp
      | cons a l ih =>
        simp only [List.map_cons, List.sum_cons, ih, List.length_cons, Nat.cast_add, Nat.cast_one]
        ring
    rw [this] at h2
    linarith

/-- A row is not wider than allowed, if no item is. -/
theorem flowing_width {rowPad colPad width : ℝ} (hw : 0 ≤ width) {sizes : List (ℝ × ℝ)}
    (hs : ∀ e ∈ sizes, e.1 ≤ width) {boxes : List Rect} {w h : ℝ}
    (hb : Flowing rowPad colPad width sizes boxes w h) : w ≤ width := by
  obtain ⟨rows, rfl, hbr, rfl, rfl, rfl⟩ := hb
  apply greatest_le hw
  intro l hl
  obtain ⟨b, hb, rfl⟩ := List.mem_map.1 hl
  obtain ⟨row, hrow, i, hi, -, h4⟩ := boxesOf_mem hb
  rw [h4]
  by_cases h0 : i = 0
  · subst h0
    cases row with
    | nil => simp at hi
    | cons e row =>
      simp only [List.map_cons, List.take_succ_cons, List.take_zero, runLength, List.foldl_cons, List.foldl_nil, lt_irrefl,
        if_false, zero_add]
      exact hs e (List.mem_flatten.2 ⟨_, hrow, by simp⟩)
  · have := hbr.fits row hrow (i + 1) (by omega) (by omega)
    rw [List.map_take] at this
    exact this

/-! ## Statements about legends -/

theorem before_apart {content a b : Rect} (h : Before a b) : Apart (onPage content a) (onPage content b) := by
  rintro q ⟨⟨h1, h2, h3, h4⟩, ⟨h5, h6, h7, h8⟩⟩
  simp only [onPage] at h1 h2 h3 h4 h5 h6 h7 h8
  rcases h with h | h <;> linarith

/-- C95: the items of a legend do not overlap, unless sizes or distances are negative. -/
theorem C95_apart_partial (c : LegendConf φ) (width : ℝ) (sizes : List (ℝ × ℝ)) (hs : ∀ e ∈ sizes, 0 ≤ e.1 ∧ 0 ≤ e.2)
    (hr : 0 ≤ c.rowPadding) (hc : 0 ≤ c.columnPadding) (content : Rect) :
    ((legendLayout c width sizes).1.map (onPage content)).Pairwise Apart := by
  rw [List.pairwise_map]
  have h := (legendLayout_iff c width sizes (legendLayout c width sizes).1
    ((legendLayout c width sizes).2.1 - (c.padding.2.1 + c.padding.2.2.2))
    ((legendLayout c width sizes).2.2 - (c.padding.1 + c.padding.2.2.1))).1 (by simp [Prod.ext_iff])
  rcases h with ⟨-, h⟩ | ⟨-, h⟩
  · exact (stacked_before hr hs h).imp before_apart
  · exact (flowing_before hr hc hs h).imp before_apart

/-- C95: the frame of a legend is in the plot area less the margins, if those leave room. -/
theorem C95_frame (ax : HAlign) (ay : VAlign) (r : Rect) (w h : ℝ) (hw : 0 ≤ w) (hh : 0 ≤ h) (hrw : 0 ≤ r.w) (hrh : 0 ≤ r.h) :
    PartOf (placed ax ay r w h) r := by
  rintro q ⟨h1, h2, h3, h4⟩
  have a1 := min_le_right w r.w
  have a2 := min_le_right h r.h
  unfold placed at h1 h2 h3 h4
  simp only at h1 h2 h3 h4
  refine ⟨?_, ?_, ?_, ?_⟩
  · cases ax <;> simp only at h1 <;> linarith
  · cases ax <;> simp only at h2 <;> linarith
  · cases ay <;> simp only at h3 <;> linarith
  · cases ay <;> simp only at h4 <;> linarith

/-- C95: the items are inside the frame of the legend, if there is room for it (there may be none: violated by the code,
a legend that does not fit is drawn over its own edge). -/
theorem C95_inside_partial (c : LegendConf φ) (parent : Rect) (sizes : List (ℝ × ℝ)) (hs : ∀ e ∈ sizes, 0 ≤ e.1 ∧ 0 ≤ e.2)
    (hr : 0 ≤ c.rowPadding) (hc : 0 ≤ c.columnPadding) (hp : 0 ≤ c.padding.1 ∧ 0 ≤ c.padding.2.1 ∧ 0 ≤ c.padding.2.2.1 ∧
      0 ≤ c.padding.2.2.2) (hw : (legendLayout c parent.w sizes).2.1 ≤ parent.w)
    (hh : (legendLayout c parent.w sizes).2.2 ≤ parent.h) :
    let r := legendLayout c parent.w sizes
    let frame := legendBox c parent r.2.1 r.2.2
    ∀ b ∈ r.1, PartOf (itemBox (legendContent c frame) b) frame := by
  intro r frame b hb
  have h := (legendLayout_iff c parent.w sizes r.1 (r.2.1 - (c.padding.2.1 + c.padding.2.2.2))
    (r.2.2 - (c.padding.1 + c.padding.2.2.1))).1 (by simp [Prod.ext_iff, r])
  have hf : FitsIn (r.2.1 - (c.padding.2.1 + c.padding.2.2.2)) (r.2.2 - (c.padding.1 + c.padding.2.2.1)) b ∧ 0 ≤ b.w ∧ 0 ≤ b.h →
      PartOf (itemBox (legendContent c frame) b) frame := by
    rintro ⟨⟨h1, h2, h3, h4⟩, h7, h8⟩ q ⟨h9, h10, h11, h12⟩
    obtain ⟨p1, p2, p3, p4⟩ := hp
    rw [itemBox_eq] at h9 h10 h11 h12
    have e1 : frame.w = r.2.1 := min_eq_left hw
    have e2 : frame.h = r.2.2 := min_eq_left hh
    have e3 : legendContent c frame = inset frame c.padding.1 c.padding.2.1 c.padding.2.2.1 c.padding.2.2.2 :=
      layoutMarginBox_eq _ _ _ _ _
    rw [e3] at h9 h10 h11 h12
    unfold onPage inset at h9 h10 h11 h12
    simp only at h9 h10 h11 h12
    have e4 : max (frame.h - c.padding.1 - c.padding.2.2.1) 0 = r.2.2 - (c.padding.1 + c.padding.2.2.1) := by
      rw [e2, max_eq_left]
      · ring
      · linarith
    rw [e4] at h11 h12
    refine ⟨by linarith, by linarith, by linarith, by linarith⟩
  rcases h with ⟨-, h⟩ | ⟨-, h⟩
  · apply hf
    refine ⟨stacked_fits hr hs h b hb, ?_⟩
    rw [h.1] at hb
    obtain ⟨i, hi, rfl⟩ := List.mem_mapIdx.1 hb
    exact hs _ (List.getElem_mem hi)
  · apply hf
    refine ⟨flowing_fits hr hc hs h b hb, ?_⟩
    obtain ⟨rows, hrs, -, hbx, -, -⟩ := h
    rw [hbx] at hb
    obtain ⟨l, hl, hb⟩ := List.mem_flatten.1 hb
    obtain ⟨k, hk, rfl⟩ := List.mem_mapIdx.1 hl
    obtain ⟨i, hi, rfl⟩ := List.mem_mapIdx.1 hb
    refine ⟨(hs _ ?_).1, rowHeight_nonneg _⟩
    rw [← hrs]
    exact List.mem_flatten.2 ⟨rows[k], List.getElem_mem hk, List.getElem_mem hi⟩

/-- C95: a legend in flow is not wider than its place, unless one of the items is. -/
theorem C95_width_partial (c : LegendConf φ) (hf : c.flow = true) (width : ℝ)
    (hw : 0 ≤ width - (c.padding.2.1 + c.padding.2.2.2)) (sizes : List (ℝ × ℝ))
    (hs : ∀ e ∈ sizes, e.1 ≤ width - (c.padding.2.1 + c.padding.2.2.2)) : (legendLayout c width sizes).2.1 ≤ width := by
  have h := (legendLayout_iff c width sizes (legendLayout c width sizes).1
    ((legendLayout c width sizes).2.1 - (c.padding.2.1 + c.padding.2.2.2))
    ((legendLayout c width sizes).2.2 - (c.padding.1 + c.padding.2.2.1))).1 (by simp [Prod.ext_iff])
  rcases h with ⟨h, -⟩ | ⟨-, h⟩
  · rw [hf] at h; cases h
  · have := flowing_width hw hs h
    linarith

/-- C95: a first item that is too wide begins below an empty row (violated by the code: rows should have items). -/
theorem C95_wide_first (rowPad colPad width : ℝ) (e : ℝ × ℝ) (es : List (ℝ × ℝ)) (he : width < e.1) :
    ∃ h bs, (flowLayout rowPad colPad width (e :: es)).1 = ⟨0, rowPad, e.1, h⟩ :: bs := by
  obtain ⟨rows, h1, h2, h3, -, -⟩ := flow_flowing rowPad colPad width (e :: es)
  cases rows with
  | nil => simp at h1
  | cons r0 rows =>
    have h0 : r0 = [] := by
      cases r0 with
      | nil => rfl
      | cons a r0 =>
        exfalso
        simp only [List.flatten_cons, List.cons_append, List.cons.injEq] at h1
        obtain ⟨rfl, -⟩ := h1
        have := h2.first a r0 rfl
        linarith
    subst h0
    cases rows with
    | nil => simp at h1
    | cons r1 rows =>
      cases r1 with
      | nil => exact absurd rfl (h2.rest 0)
      | cons a r1 =>
        simp only [List.flatten_cons, List.nil_append, List.cons_append, List.cons.injEq] at h1
        obtain ⟨rfl, -⟩ := h1
        rw [h3]
        simp only [List.mapIdx_cons, List.flatten_cons, rowBoxes, List.cons_append, List.take_zero, List.map_nil,
          List.mapIdx_nil, List.nil_append]
        refine ⟨rowHeight (a :: r1), _, List.cons_eq_cons.2 ⟨?_, rfl⟩⟩
        simp [LegendSpec.next, runLength, LegendSpec.rowHeight, greatest]

end
end Clip
