import Verif.Lemmas.EnlargeDraw
/-! # C127 for drawings -/
namespace Clip.Enlarge
open Settings Drawing Pictures Options Whole
noncomputable section
variable {φ : Type} {k : ℝ} {P : PlotEnv φ}

theorem same_shapes {stod : Str → Option (ℝ × Nat)} {doc doc' : List Expr} (h : List.Forall₂ (MoreDots stod k) doc doc') :
    (doc'.filter fun c => !isSetting c) = doc.filter fun c => !isSetting c := by
  induction h with
  | nil => rfl
  | @cons c c' cs cs' h _ ih =>
    rw [List.filter_cons, List.filter_cons, dots_setting h, ih]
    rcases h with ⟨rfl, _⟩ | ⟨h1, _⟩
    · rfl
    · have : isSetting c = true := by
        unfold isSetting
        rw [h1]
        exact decide_eq_true (by decide +kernel)
      simp [this]

theorem last_dots {stod : Str → Option (ℝ × Nat)} {doc doc' : List Expr} (h : List.Forall₂ (MoreDots stod k) doc doc')
    (hl : (∀ c ∈ doc, isSetting c = true) ∨ ∀ c ∈ doc.getLast?, isSetting c = false) :
    (∀ c ∈ doc', isSetting c = true) ∨ ∀ c ∈ doc'.getLast?, isSetting c = false := by
  rcases hl with hl | hl
  · refine .inl fun c' hc' => ?_
    obtain ⟨c, hc, hr⟩ := left_of h hc'
    rw [dots_setting hr]; exact hl c hc
  · refine .inr fun c' hc' => ?_
    have hrev := List.rel_reverse h
    cases hd' : doc'.reverse with
    | nil =>
      rw [List.getLast?_eq_head?_reverse, hd'] at hc'; cases hc'
    | cons a as =>
      cases hd : doc.reverse with
      | nil => rw [hd, hd'] at hrev; cases hrev
      | cons b bs =>
        rw [hd, hd'] at hrev
        cases hrev with
        | cons hr _ =>
          rw [List.getLast?_eq_head?_reverse, hd'] at hc'
          cases hc'
          rw [dots_setting hr]
          exact hl b (by rw [List.getLast?_eq_head?_reverse, hd]; rfl)

theorem drawing_big (hk : 0 < k) (hT : ScalableFonts P.text k) {doc doc' : List Expr}
    (hd : List.Forall₂ (MoreDots P.stod k) doc doc') (ho : OnPaper P.stod doc) (hp : ∀ c ∈ doc, isSetting c = false → PlainDrawing P.stod c)
    (hclass : ∃ c ∈ doc, nameOf c = some "class".toList) (hclass' : ∀ c ∈ doc, nameOf c = some "class".toList → ∀ t, IsText (argsOf c) t → t = "draw".toList)
    {L L' : Layer φ} (hL : L.size.fontSize.unit ≠ .px) (he : L.drawlist = []) (hst : style k L.defaultStyle = L.defaultStyle)
    (h : DocumentOf P L doc L') : ∃ M', DocumentOf P L doc' M' ∧ Page k L' M' := by
  obtain ⟨page, kind, hpage, h⟩ := h
  obtain ⟨hpage', hbig⟩ := page_big hd ho hL he hpage
  rcases h with ⟨hkind, _⟩ | ⟨hkind, hlast, shapes, hs, rfl⟩
  · exfalso
    rcases last_said hpage.2.1 with ⟨_, hno⟩ | ⟨c, hc, hn, ht⟩
    · obtain ⟨c, hc, hn⟩ := hclass
      have hset : isSetting c = true := by
        unfold isSetting
        rw [hn]
        exact decide_eq_true (by decide +kernel)
      exact hno c (List.mem_filter.2 ⟨hc, hset⟩) hn
    · have := hclass' c (List.mem_filter.1 hc).1 hn _ ht
      rw [hkind] at this
      exact absurd this (by decide +kernel)
  · have hdef : page.defaultStyle = L.defaultStyle := hpage.2.2.2.2.2.2.2.2.1
    refine ⟨_, ⟨_, kind, hpage', .inr ⟨hkind, last_dots hd hlast, _, ?_, rfl⟩⟩, drawn_big hbig shapes⟩
    rw [same_shapes hd]
    refine all_big hk hT hbig ?_ (fun c hc => hp c (List.mem_filter.1 hc).1 (by simpa using (List.mem_filter.1 hc).2)) hs
    show page.defaultStyle = _
    rw [hdef, hst]

theorem all_plainDrawing {stod : Str → Option (ℝ × Nat)} {doc doc' : List Expr} (hd : List.Forall₂ (MoreDots stod k) doc doc')
    (hp : ∀ c ∈ doc, isSetting c = false → PlainDrawing stod c) : ∀ c ∈ doc', isSetting c = false → PlainDrawing stod c := by
  intro c' hc' hset
  obtain ⟨c, hc, hr⟩ := left_of hd hc'
  rcases hr with ⟨rfl, _⟩ | ⟨_, h2, _⟩
  · exact hp _ hc hset
  · exfalso
    have : isSetting c' = true := by
      unfold isSetting
      rw [h2]
      exact decide_eq_true (by decide +kernel)
    rw [this] at hset; cases hset

end
end Clip.Enlarge

namespace Clip
open Settings Pictures PlistSyntax Whole Enlarge
noncomputable section
variable {φ : Type}

/-- C127: a drawing in which there are no pixels, on a page with `k` times as many pixels per inch, is the same drawing, `k`
times as large. -/
theorem C127_drawing (T : TextEnv φ) (hT : LevelsOfChars T) (stod : Str → Option (ℝ × Nat)) (hn : stod "solid".toList = none ∧ stod "dash".toList = none)
    (k : ℝ) (hk : 0 < k) (hF : ScalableFonts T k) (cmds : List Expr) (hc : ∀ e ∈ cmds, PlainDrawing stod e) (L M L' : Layer φ)
    (hL : L.palette ≠ []) (hp : Page k L M) (hd : M.defaultStyle = style k L.defaultStyle)
    (h : drawModule T stod cmds L = (L', none)) : ∃ M', drawModule T stod cmds M = (M', none) ∧ Page k L' M' := by
  obtain ⟨shapes, h1, rfl⟩ := (C81_module T hT stod L L' hL hn cmds).1 h
  exact ⟨_, (C81_module T hT stod M _ (by rw [hp.palette]; exact hL) hn cmds).2 ⟨_, all_big hk hF hp hd hc h1, rfl⟩, drawn_big hp shapes⟩

/-- C127: a document that gives the size of its page in millimetres or points, with a drawing in which there are no pixels, and
the same document with `k` times as many dots per inch: either both are refused, or the second picture is the first, `k` times
as large. -/
theorem C127_drawing_document (P : PlotEnv φ) (hT : LevelsOfChars P.text) (hn : P.stod "solid".toList = none ∧ P.stod "dash".toList = none)
    (k : ℝ) (hk : 0 < k) (hF : ScalableFonts P.text k) (toks toks' : List PTok) (doc doc' : List Expr) (src src' : Str)
    (h : Text toks src) (h' : Text toks' src') (hd : LaxDoc toks doc) (hd' : LaxDoc toks' doc')
    (hs : List.Forall₂ (MoreDots P.stod k) doc doc') (hpaper : OnPaper P.stod doc)
    (hplain : ∀ c ∈ doc, isSetting c = false → PlainDrawing P.stod c)
    (hclass : ∃ c ∈ doc, nameOf c = some "class".toList)
    (hdraw : ∀ c ∈ doc, nameOf c = some "class".toList → ∀ t, IsText (argsOf c) t → t = "draw".toList) :
    (evalAll P (newLayer φ) src = none ∧ evalAll P (newLayer φ) src' = none) ∨
    ∃ L M, evalAll P (newLayer φ) src = some L ∧ evalAll P (newLayer φ) src' = some M ∧ Page k L M := by
  have hf : (newLayer φ).size.fontSize.unit ≠ .px := by intro h; cases h
  have one : ∀ L, evalAll P (newLayer φ) src = some L → ∃ M, evalAll P (newLayer φ) src' = some M ∧ Page k L M := by
    intro L he
    obtain ⟨t, d, h1, h2, h3⟩ := (C98_text P hT hn _ newLayer_palette src L).1 he
    have := Spelling.document_unique h h1 hd h2
    subst this
    obtain ⟨M, h4, h5⟩ := drawing_big hk hF hs hpaper hplain hclass hdraw hf rfl rfl h3
    exact ⟨M, (C98_text P hT hn _ newLayer_palette src' M).2 ⟨toks', doc', h', hd', h4⟩, h5⟩
  have hclass' : ∃ c ∈ doc', nameOf c = some "class".toList := by
    obtain ⟨c, hc, hcn⟩ := hclass
    obtain ⟨c', hc', hr⟩ := right_of hs hc
    exact ⟨c', hc', (dots_name hr).trans hcn⟩
  have two : ∀ M, evalAll P (newLayer φ) src' = some M → ∃ L, evalAll P (newLayer φ) src = some L := by
    intro M he
    obtain ⟨t, d, h1, h2, h3⟩ := (C98_text P hT hn _ newLayer_palette src' M).1 he
    have := Spelling.document_unique h' h1 hd' h2
    subst this
    obtain ⟨L, h4, _⟩ := drawing_big (inv_pos.2 hk) (fonts_inv hk.ne' hF) (dots_inv hk.ne' hs) (paper_dots hs hpaper)
      (all_plainDrawing hs hplain) hclass' (fun c hc hn => hdraw c (same_command hs words.1 hc hn) hn) hf rfl rfl h3
    exact ⟨L, (C98_text P hT hn _ newLayer_palette src L).2 ⟨toks, doc, h, hd, h4⟩⟩
  cases he : evalAll P (newLayer φ) src with
  | some L =>
    obtain ⟨M, h1, h2⟩ := one L he
    exact .inr ⟨L, M, rfl, h1, h2⟩
  | none =>
    refine .inl ⟨rfl, ?_⟩
    cases he' : evalAll P (newLayer φ) src' with
    | none => rfl
    | some M =>
      obtain ⟨L, h1⟩ := two M he'
      rw [he] at h1; cases h1

/-- The rectangle `(rectangle (position 10mm 50%) (stroke 2pt black))` has no pixels. -/
example (stod : Str → Option (ℝ × Nat)) (h10 : stod "10mm".toList = some (10, 2)) (h50 : stod "50%".toList = some (50, 2))
    (h2 : stod "2pt".toList = some (2, 1)) (hw : ∀ s ∈ ["position".toList, "stroke".toList, "black".toList], stod s = none) :
    PlainDrawing stod (.list [.literal "rectangle".toList, .list [.literal "position".toList, .literal "10mm".toList, .literal "50%".toList],
      .list [.literal "stroke".toList, .literal "2pt".toList, .literal "black".toList]]) := by
  have key : ∀ (ts : List Str), (∀ t ∈ ts, ∀ v pos, stod t = some (v, pos) → t.drop pos ≠ ['p', 'x']) →
      NoPixels stod (.list (ts.map .literal)) := by
    intro ts ht s v pos hs hst
    cases hs with
    | list he hs =>
      obtain ⟨t, htm, rfl⟩ := List.mem_map.1 he
      cases hs
      exact ht _ htm v pos hst
  have hd : "10mm".toList.drop 2 ≠ ['p', 'x'] ∧ "50%".toList.drop 2 ≠ ['p', 'x'] ∧ "2pt".toList.drop 1 ≠ ['p', 'x'] := by decide +kernel
  intro c hc
  refine .inr (.inr ?_)
  simp only [argsOf, List.mem_cons, List.not_mem_nil, or_false] at hc
  rcases hc with rfl | rfl
  · refine key ["position".toList, "10mm".toList, "50%".toList] fun t ht v pos h => ?_
    simp only [List.mem_cons, List.not_mem_nil, or_false] at ht
    rcases ht with rfl | rfl | rfl
    · rw [hw _ (by simp)] at h; cases h
    · rw [h10] at h; cases h; exact hd.1
    · rw [h50] at h; cases h; exact hd.2.1
  · refine key ["stroke".toList, "2pt".toList, "black".toList] fun t ht v pos h => ?_
    simp only [List.mem_cons, List.not_mem_nil, or_false] at ht
    rcases ht with rfl | rfl | rfl
    · rw [hw _ (by simp)] at h; cases h
    · rw [h2] at h; cases h; exact hd.2.2
    · rw [hw _ (by simp)] at h; cases h

end
end Clip
