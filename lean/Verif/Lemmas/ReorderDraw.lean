import Verif.Lemmas.Reorder
import Verif.Spec.Pictures
import Verif.Spec.Reorder
/-! # C114: the options of shapes and texts in another order -/
set_option linter.unusedSimpArgs false
namespace Clip.Reorder
open Settings Drawing Pictures Options

theorem named_one (n : String) : named [n] = fun c => nameOf c == some n.toList := by
  funext c
  rw [Bool.eq_iff_iff]
  simp [named]

theorem lastArgs_same {n : String} {cs cs' : List Expr} (h : cs.filter (named [n]) = cs'.filter (named [n])) :
    lastArgs n.toList cs = lastArgs n.toList cs' := by
  rw [named_one] at h
  unfold lastArgs
  rw [h]

theorem final_same {α : Type} {R : List Expr → α → Prop} {n : String} {cs cs' : List Expr} (h : cs.filter (named [n]) = cs'.filter (named [n]))
    {a b : α} (hf : Final R n.toList cs a b) : Final R n.toList cs' a b := by
  unfold Final at hf ⊢
  rwa [← lastArgs_same h]

theorem allArgs_same {n : String} {cs cs' : List Expr} (h : cs.filter (named [n]) = cs'.filter (named [n])) :
    allArgs n.toList cs = allArgs n.toList cs' := by
  rw [named_one] at h
  unfold allArgs
  rw [h]

theorem named_fill {c : Expr} : named ["color", "fill"] c = true ↔ nameOf c = some "color".toList ∨ nameOf c = some "fill".toList := by
  simp [named]

theorem named_stroke {c : Expr} : named ["stroke"] c = true ↔ nameOf c = some "stroke".toList := by
  simp [named]

theorem words_apart : "color".toList ≠ "fill".toList ∧ "color".toList ≠ "stroke".toList ∧ "fill".toList ≠ "stroke".toList := by decide

theorem fill_only {E : ReadEnv} {args : List Expr} {f : Compound} (h : FillMeans E args f) : ∃ a b, f = ⟨a, b, [], []⟩ := by
  cases h <;> exact ⟨_, _, rfl⟩

theorem stroke_only {E : ReadEnv} {args : List Expr} {f : Compound} (h : StrokeMeans E args f) : ∃ a b, f = ⟨[], [], a, b⟩ := by
  cases h <;> exact ⟨_, _, rfl⟩

/-- The fills and the lines of a style do not depend on each other. -/
theorem style_apart (E : ReadEnv) {cs : List Expr} {s : Compound} (h : StyleMeans E cs s) :
    StyleMeans E (cs.filter (named ["color", "fill"])) ⟨s.fillSolid, s.fillHatch, [], []⟩ ∧
      StyleMeans E (cs.filter (named ["stroke"])) ⟨[], [], s.strokeSolid, s.strokeDash⟩ := by
  obtain ⟨w1, w2, w3⟩ := words_apart
  induction h with
  | nil => exact ⟨.nil, .nil⟩
  | @color c cs v s h1 h2 _ ih =>
    rw [List.filter_cons_of_pos (named_fill.2 (.inl h1)),
      List.filter_cons_of_neg (fun h => w2 (Option.some.inj (h1.symm.trans (named_stroke.1 h))))]
    exact ⟨.color h1 h2 ih.1, ih.2⟩
  | @fill c cs f s h1 h2 _ ih =>
    rw [List.filter_cons_of_pos (named_fill.2 (.inr h1)),
      List.filter_cons_of_neg (fun h => w3 (Option.some.inj (h1.symm.trans (named_stroke.1 h))))]
    obtain ⟨a, b, rfl⟩ := fill_only h2
    exact ⟨.fill h1 h2 ih.1, ih.2⟩
  | @stroke c cs f s h1 h2 _ ih =>
    rw [List.filter_cons_of_pos (named_stroke.2 h1), List.filter_cons_of_neg (fun h => by
      rcases named_fill.1 h with h | h
      · exact w2 (Option.some.inj (h.symm.trans h1))
      · exact w3 (Option.some.inj (h.symm.trans h1)))]
    obtain ⟨a, b, rfl⟩ := stroke_only h2
    exact ⟨ih.1, .stroke h1 h2 ih.2⟩
  | @other c cs s h1 h2 h3 _ ih =>
    rw [List.filter_cons_of_neg (fun h => h3 (named_stroke.1 h)),
      List.filter_cons_of_neg (fun h => (named_fill.1 h).elim h1 h2)]
    exact ih

theorem style_together (E : ReadEnv) {cs : List Expr} {f k : Compound} (h1 : StyleMeans E (cs.filter (named ["color", "fill"])) f)
    (h2 : StyleMeans E (cs.filter (named ["stroke"])) k) :
    StyleMeans E cs ⟨f.fillSolid, f.fillHatch, k.strokeSolid, k.strokeDash⟩ := by
  obtain ⟨w1, w2, w3⟩ := words_apart
  induction cs generalizing f k with
  | nil => cases h1; cases h2; exact .nil
  | cons c cs ih =>
    by_cases hk : nameOf c = some "stroke".toList
    · rw [List.filter_cons_of_neg (fun h => by
        rcases named_fill.1 h with h | h
        · exact w2 (Option.some.inj (h.symm.trans hk))
        · exact w3 (Option.some.inj (h.symm.trans hk)))] at h1
      rw [List.filter_cons_of_pos (named_stroke.2 hk)] at h2
      cases h2 with
      | color h => exact absurd (Option.some.inj (h.symm.trans hk)) w2
      | fill h => exact absurd (Option.some.inj (h.symm.trans hk)) w3
      | other _ _ h => exact absurd hk h
      | stroke h h' h'' =>
        obtain ⟨a, b, rfl⟩ := stroke_only h'
        exact .stroke h h' (ih h1 h'')
    · rw [List.filter_cons_of_neg (fun h => hk (named_stroke.1 h))] at h2
      by_cases hf : nameOf c = some "color".toList ∨ nameOf c = some "fill".toList
      · rw [List.filter_cons_of_pos (named_fill.2 hf)] at h1
        cases h1 with
        | stroke h => exact absurd h hk
        | other h h' => exact absurd hf (not_or.2 ⟨h, h'⟩)
        | color h h' h'' => exact .color h h' (ih h'' h2)
        | fill h h' h'' =>
          obtain ⟨a, b, rfl⟩ := fill_only h'
          exact .fill h h' (ih h'' h2)
      · rw [List.filter_cons_of_neg (fun h => hf (named_fill.1 h))] at h1
        rw [not_or] at hf
        exact .other hf.1 hf.2 hk (ih h1 h2)

theorem style_same (E : ReadEnv) {cs cs' : List Expr} (hf : cs.filter (named ["color", "fill"]) = cs'.filter (named ["color", "fill"]))
    (hk : cs.filter (named ["stroke"]) = cs'.filter (named ["stroke"])) {s : Compound} (h : StyleMeans E cs s) : StyleMeans E cs' s := by
  obtain ⟨h1, h2⟩ := style_apart E h
  rw [hf] at h1
  rw [hk] at h2
  have := style_together E h1 h2
  exact this

theorem rect_same (E : ReadEnv) {cs cs' : List Expr} (h : SameUpToOrder rectangleGroups cs cs') {p z : Vec2} {s : Compound}
    (hm : RectMeans E cs p z s) : RectMeans E cs' p z s := by
  obtain ⟨h1, h2, h3, h4⟩ := hm
  have g := h.2
  simp only [rectangleGroups, List.forall_mem_cons] at g
  obtain ⟨g1, g2, g3, g4, _⟩ := g
  exact ⟨fun c hc => h1 c (h.1.mem_iff.2 hc), final_same g1 h2, final_same g2 h3, style_same E g3 g4 h4⟩

theorem text_same (E : ReadEnv) {φ : Type} {load : Str → Option φ} {fs : List φ} {cs cs' : List Expr} (h : SameUpToOrder textGroups cs cs')
    {t : Str} {p : Vec2} {f : List φ} {z : ℝ} {s : Compound}
    (hm : TextMeans E load fs cs t p f z s) : TextMeans E load fs cs' t p f z s := by
  obtain ⟨h1, h2, h3, h4, h5, h6⟩ := hm
  have g := h.2
  simp only [textGroups, List.forall_mem_cons] at g
  obtain ⟨g1, g2, g3, g4, g5, g6, _⟩ := g
  exact ⟨fun c hc => h1 c (h.1.mem_iff.2 hc), final_same g1 h2, final_same g2 h3, final_same g4 h4, by rwa [← allArgs_same g3],
    style_same E g5 g6 h6⟩

end Clip.Reorder
