import Verif.Spec.Sources
import Verif.Lemmas.Sources
/-! # C122: the notation of values in drawings -/
set_option linter.unusedSimpArgs false
namespace Clip.Notation
open Settings Pictures Drawing Options

variable {E : ReadEnv}

theorem draw_name {c c' : Expr} (h : SameDrawOption E c c') : nameOf c' = nameOf c := by
  cases h with
  | same => rfl
  | color h h' => exact h'.trans h.symm
  | fill h h' => exact h'.trans h.symm
  | stroke h h' => exact h'.trans h.symm
  | position h h' => exact h'.trans h.symm
  | size h h' => exact h'.trans h.symm
  | fontSize h h' => exact h'.trans h.symm

theorem draw_symm {c c' : Expr} (h : SameDrawOption E c c') : SameDrawOption E c' c := by
  cases h with
  | same => exact .same _
  | color h h' a b => exact .color h' h b a
  | fill h h' a b => exact .fill h' h b a
  | stroke h h' a b => exact .stroke h' h b a
  | position h h' a b => exact .position h' h b a
  | size h h' a b => exact .size h' h b a
  | fontSize h h' a b => exact .fontSize h' h b a

theorem draw_words : (["color", "fill", "stroke", "position", "size", "font-size", "text", "font"].map String.toList).Nodup := by decide

theorem pair_unique {f g : UnitConvMap} {args : List Expr} {v w : Vec2} (h : IsPair E f g args v) (h' : IsPair E f g args w) : v = w := by
  obtain ⟨a, b, rfl, h1, h2⟩ := h
  obtain ⟨a', b', e, h3, h4⟩ := h'
  cases e
  obtain ⟨vx, vy⟩ := v
  obtain ⟨wx, wy⟩ := w
  cases Except.ok.inj (h1.symm.trans h3)
  cases Except.ok.inj (h2.symm.trans h4)
  rfl

/-- A reading that is the same for both notations of an option of this name. -/
def Reads' {α : Type} (E : ReadEnv) (n : Str) (R : List Expr → α → Prop) : Prop :=
  ∀ c c', SameDrawOption E c c' → nameOf c = some n → ∀ v, R (argsOf c) v → R (argsOf c') v

theorem last_draw {n : Str} {cs cs' : List Expr} (hc : List.Forall₂ (SameDrawOption E) cs cs') :
    List.Forall₂ (SameDrawOption E) (cs.filter fun c => nameOf c == some n) (cs'.filter fun c => nameOf c == some n) := by
  induction hc with
  | nil => exact .nil
  | cons h _ ih =>
    rw [List.filter_cons, List.filter_cons, draw_name h]
    split
    · exact .cons h ih
    · exact ih

theorem last_pair {R : Expr → Expr → Prop} {as bs : List Expr} (h : List.Forall₂ R as bs) :
    (as.getLast? = none ∧ bs.getLast? = none) ∨ ∃ a b, as.getLast? = some a ∧ bs.getLast? = some b ∧ R a b := by
  induction h with
  | nil => exact .inl ⟨rfl, rfl⟩
  | cons h ht ih =>
    cases ht with
    | nil => exact .inr ⟨_, _, rfl, rfl, h⟩
    | cons h' ht' =>
      rw [List.getLast?_cons_cons, List.getLast?_cons_cons]
      exact ih

theorem final_draw {α : Type} {n : Str} {R : List Expr → α → Prop} (hr : Reads' E n R) {cs cs' : List Expr}
    (hc : List.Forall₂ (SameDrawOption E) cs cs') {a b : α} (h : Final R n cs a b) : Final R n cs' a b := by
  unfold Final lastArgs at h ⊢
  rcases last_pair (last_draw (n := n) hc) with ⟨h1, h2⟩ | ⟨c, c', h1, h2, h3⟩
  · rw [h1] at h; rw [h2]; exact h
  · rw [h1] at h
    rw [h2]
    exact hr c c' h3 (by simpa using (List.mem_filter.1 (List.mem_of_getLast? h1)).2) _ h

/-- The name of an option is one name only. -/
theorem one_name {c : Expr} {m n : Str} {α : Prop} (h : nameOf c = some m) (h' : nameOf c = some n) (hne : m ≠ n) : α :=
  absurd (Option.some.inj (h.symm.trans h')) hne

theorem reads_position : Reads' E "position".toList (IsPosition E) := by
  intro c c' h hn v hv
  cases h with
  | same => exact hv
  | position h _ a b => exact pair_unique a hv ▸ b
  | color h => exact one_name h hn (by decide)
  | fill h => exact one_name h hn (by decide)
  | stroke h => exact one_name h hn (by decide)
  | size h => exact one_name h hn (by decide)
  | fontSize h => exact one_name h hn (by decide)

theorem reads_extent : Reads' E "size".toList (IsExtent E) := by
  intro c c' h hn v hv
  cases h with
  | same => exact hv
  | size h _ a b => exact pair_unique a hv ▸ b
  | color h => exact one_name h hn (by decide)
  | fill h => exact one_name h hn (by decide)
  | stroke h => exact one_name h hn (by decide)
  | position h => exact one_name h hn (by decide)
  | fontSize h => exact one_name h hn (by decide)

theorem reads_fontSize : Reads' E "font-size".toList (IsSize E) := by
  intro c c' h hn v hv
  cases h with
  | same => exact hv
  | fontSize h _ a b => exact size_unique a hv ▸ b
  | color h => exact one_name h hn (by decide)
  | fill h => exact one_name h hn (by decide)
  | stroke h => exact one_name h hn (by decide)
  | position h => exact one_name h hn (by decide)
  | size h => exact one_name h hn (by decide)

/-- Options that are never changed. -/
theorem reads_kept {α : Type} {n : Str} {R : List Expr → α → Prop}
    (hne : n ∉ ["color", "fill", "stroke", "position", "size", "font-size"].map String.toList) : Reads' E n R := by
  intro c c' h hn v hv
  simp only [List.map_cons, List.map_nil, List.mem_cons, not_or] at hne
  cases h with
  | same => exact hv
  | color h => exact one_name hn h hne.1
  | fill h => exact one_name hn h hne.2.1
  | stroke h => exact one_name hn h hne.2.2.1
  | position h => exact one_name hn h hne.2.2.2.1
  | size h => exact one_name hn h hne.2.2.2.2.1
  | fontSize h => exact one_name hn h hne.2.2.2.2.2.1

/-- A reading of each of the options, which is the same. -/
theorem all_draw {n : Str} (hne : n ∉ ["color", "fill", "stroke", "position", "size", "font-size"].map String.toList) {cs cs' : List Expr}
    (hc : List.Forall₂ (SameDrawOption E) cs cs') : allArgs n cs' = allArgs n cs := by
  unfold allArgs
  have hf := last_draw (n := n) hc
  have hm : ∀ c ∈ cs.filter (fun c => nameOf c == some n), nameOf c = some n := fun c h => by simpa using (List.mem_filter.1 h).2
  generalize (cs.filter fun c => nameOf c == some n) = xs at hf hm
  generalize (cs'.filter fun c => nameOf c == some n) = ys at hf
  induction hf with
  | nil => rfl
  | cons h _ ih =>
    rw [List.map_cons, List.map_cons, ih fun c hc => hm c (.tail _ hc)]
    exact congrArg (· :: _) (reads_kept (R := fun args v => v = args) hne _ _ h (hm _ (.head _)) _ rfl).symm

theorem style_draw (hf : ∀ {args f f'}, FillMeans E args f → FillMeans E args f' → f = f')
    (hk : ∀ {args f f'}, StrokeMeans E args f → StrokeMeans E args f' → f = f') {cs cs' : List Expr}
    (hc : List.Forall₂ (SameDrawOption E) cs cs') {s : Compound} (h : StyleMeans E cs s) : StyleMeans E cs' s := by
  induction h generalizing cs' with
  | nil => cases hc; exact .nil
  | color h1 h2 _ ih =>
    cases hc with
    | cons h hc =>
      refine .color ((draw_name h).trans h1) ?_ (ih hc)
      cases h with
      | same => exact h2
      | color h _ a b => exact color_unique a h2 ▸ b
      | fill h => exact one_name h h1 (by decide)
      | stroke h => exact one_name h h1 (by decide)
      | position h => exact one_name h h1 (by decide)
      | size h => exact one_name h h1 (by decide)
      | fontSize h => exact one_name h h1 (by decide)
  | fill h1 h2 _ ih =>
    cases hc with
    | cons h hc =>
      refine .fill ((draw_name h).trans h1) ?_ (ih hc)
      cases h with
      | same => exact h2
      | fill h _ a b => exact hf a h2 ▸ b
      | color h => exact one_name h h1 (by decide)
      | stroke h => exact one_name h h1 (by decide)
      | position h => exact one_name h h1 (by decide)
      | size h => exact one_name h h1 (by decide)
      | fontSize h => exact one_name h h1 (by decide)
  | stroke h1 h2 _ ih =>
    cases hc with
    | cons h hc =>
      refine .stroke ((draw_name h).trans h1) ?_ (ih hc)
      cases h with
      | same => exact h2
      | stroke h _ a b => exact hk a h2 ▸ b
      | color h => exact one_name h h1 (by decide)
      | fill h => exact one_name h h1 (by decide)
      | position h => exact one_name h h1 (by decide)
      | size h => exact one_name h h1 (by decide)
      | fontSize h => exact one_name h h1 (by decide)
  | other h1 h2 h3 _ ih =>
    cases hc with
    | cons h hc => exact .other (draw_name h ▸ h1) (draw_name h ▸ h2) (draw_name h ▸ h3) (ih hc)

/-- What is acceptable for one option is acceptable for the other. -/
theorem setting_draw {n : Str} {c c' : Expr} (h : SameDrawOption E c c') (hn : nameOf c = some n) (hs : StyleSetting E n (argsOf c)) :
    StyleSetting E n (argsOf c') := by
  cases h with
  | same => exact hs
  | color h _ _ b => exact .inl ⟨Option.some.inj (hn.symm.trans h), _, b⟩
  | fill h _ _ b => exact .inr (.inl ⟨Option.some.inj (hn.symm.trans h), _, b⟩)
  | stroke h _ _ b => exact .inr (.inr ⟨Option.some.inj (hn.symm.trans h), _, b⟩)
  | position h =>
    rcases hs with ⟨e, _⟩ | ⟨e, _⟩ | ⟨e, _⟩ <;> exact one_name h (hn.trans (congrArg some e)) (by decide)
  | size h =>
    rcases hs with ⟨e, _⟩ | ⟨e, _⟩ | ⟨e, _⟩ <;> exact one_name h (hn.trans (congrArg some e)) (by decide)
  | fontSize h =>
    rcases hs with ⟨e, _⟩ | ⟨e, _⟩ | ⟨e, _⟩ <;> exact one_name h (hn.trans (congrArg some e)) (by decide)

end Clip.Notation
