import Verif.Lemmas.TextLayout
import Mathlib.Algebra.BigOperators.Group.List.Basic
import Mathlib.Algebra.Order.BigOperators.Group.List
import Mathlib.Tactic.Linarith
import Mathlib.Tactic.Ring
/-!
# C32, C72: order and placement of the spans of a text line
-/
set_option linter.unusedSimpArgs false
namespace Clip
open Bidi

/-! ## C32 -/

theorem visualOrder_perm {levels : List Nat} {dir : TextDirection} {order : List Nat}
    (h : visualOrder levels dir = some order) : order.Perm (List.range levels.length) := by
  cases levels with
  | nil => simp [visualOrder] at h
  | cons l ls =>
    simp only [visualOrder, Option.some.injEq] at h
    subst h
    cases dir
    · exact levelPasses_perm _ _ _
    · exact (List.reverse_perm _).trans (levelPasses_perm _ _ _)

theorem pick_range {α : Type} (spans : List α) :
    (List.range spans.length).filterMap (fun i => spans[i]?) = spans := by
  have h : (List.range spans.length).map (fun i => spans[i]?) = spans.map some := by
    apply List.ext_getElem
    · simp
    · intro i h1 h2
      have : i < spans.length := by simpa using h2
      simp [List.getElem?_eq_getElem this]
  have h2 := congrArg (List.filterMap id) h
  rw [List.filterMap_map, List.filterMap_map] at h2
  have e : (id ∘ fun i => spans[i]?) = fun i : Nat => spans[i]? := rfl
  have e' : (id ∘ some : α → Option α) = some := rfl
  rw [e, e', List.filterMap_some] at h2
  exact h2

/-- C32: the visual order contains every span exactly once. -/
theorem C32_permutation {α : Type} (spans out : List α) (levels : List Nat) (dir : TextDirection)
    (hl : levels.length = spans.length) (h : reorderBidiLine spans levels dir = some out) : out.Perm spans := by
  unfold reorderBidiLine at h
  cases ho : visualOrder levels dir with
  | none => rw [ho] at h; simp at h
  | some order =>
    rw [ho, Option.map_some, Option.some.injEq] at h
    subst h
    have hp := visualOrder_perm ho
    rw [hl] at hp
    refine (hp.filterMap _).trans ?_
    rw [pick_range]

/-- C32: for two spans of a left-to-right line, the logically first is displayed further left if and only if the least
embedding level between them is even (the reordering rule L2 of the Unicode bidirectional algorithm); in a
right-to-left line, which is laid out from the right edge, if and only if it is odd. -/
theorem C32_order (levels : List Nat) (dir : TextDirection) (hne : levels ≠ []) :
    ∃ order, visualOrder levels dir = some order ∧ order.Perm (List.range levels.length) ∧
      ∀ i j m, i < j → j < levels.length → LeastBetween levels i j m →
        match dir with
        | .ltr => (Before order i j ↔ m % 2 = 0) ∧ (Before order j i ↔ m % 2 = 1)
        | .rtl => (Before order j i ↔ m % 2 = 0) ∧ (Before order i j ↔ m % 2 = 1) := by
  cases levels with
  | nil => exact absurd rfl hne
  | cons l ls =>
    set base := levelPasses (l :: ls) (ls.foldl max l) (List.range (l :: ls).length) with hb
    have hinv := orderInv_passes (orderInv_init l ls)
    rw [← hb] at hinv
    have hperm : base.Perm (List.range (l :: ls).length) := levelPasses_perm _ _ _
    have key : ∀ i j m, i < j → j < (l :: ls).length → LeastBetween (l :: ls) i j m →
        (Before base i j ↔ m % 2 = 0) ∧ (Before base j i ↔ m % 2 = 1) := by
      intro i j m hij hj hm
      have hmem : ∀ x, x < (l :: ls).length → ∃ p : Nat, base[p]? = some x := by
        intro x hx
        have : x ∈ base := hperm.mem_iff.2 (List.mem_range.2 hx)
        obtain ⟨p, hp, e⟩ := List.getElem_of_mem this
        exact ⟨p, by rw [List.getElem?_eq_getElem hp, e]⟩
      obtain ⟨p, hp⟩ := hmem i (by omega)
      obtain ⟨q, hq⟩ := hmem j hj
      have hpq : p ≠ q := by rintro rfl; rw [hp] at hq; cases hq; omega
      have hnd : base.Nodup := hperm.nodup_iff.2 List.nodup_range
      have huniq : ∀ p p' x : Nat, base[p]? = some x → base[p']? = some x → p = p' := by
        intro p p' x h1 h2
        obtain ⟨a1, b1⟩ := List.getElem?_eq_some_iff.1 h1
        obtain ⟨a2, b2⟩ := List.getElem?_eq_some_iff.1 h2
        exact (List.Nodup.getElem_inj_iff hnd).1 (b1.trans b2.symm)
      have ho := hinv.order p q i j m hp hq hij hm
      rw [Nat.sub_zero] at ho
      constructor
      · rw [← ho]
        constructor
        · rintro ⟨p', q', h1, h2, h3⟩
          rw [huniq p p' i hp h2, huniq q q' j hq h3]; exact h1
        · intro h; exact ⟨p, q, h, hp, hq⟩
      · have : m % 2 = 1 ↔ q < p := by
          have : m % 2 = 1 ↔ ¬ (m % 2 = 0) := by omega
          rw [this, ← ho]; omega
        rw [this]
        constructor
        · rintro ⟨q', p', h1, h2, h3⟩
          rw [huniq p p' i hp h3, huniq q q' j hq h2]; exact h1
        · intro h; exact ⟨q, p, h, hq, hp⟩
    cases dir with
    | ltr => exact ⟨base, rfl, hperm, key⟩
    | rtl =>
      refine ⟨base.reverse, rfl, (List.reverse_perm _).trans hperm, ?_⟩
      have hrev : ∀ i j, Before base.reverse i j ↔ Before base j i := by
        have one : ∀ (b : List Nat) i j, Before b.reverse i j → Before b j i := by
          rintro b i j ⟨p, q, h1, h2, h3⟩
          have hp : p < b.length := by
            have := (List.getElem?_eq_some_iff.1 h2).1; simpa using this
          have hq : q < b.length := by
            have := (List.getElem?_eq_some_iff.1 h3).1; simpa using this
          rw [List.getElem?_reverse hp] at h2
          rw [List.getElem?_reverse hq] at h3
          exact ⟨_, _, by omega, h3, h2⟩
        intro i j
        refine ⟨one base i j, fun h => ?_⟩
        have := one base.reverse j i
        rw [List.reverse_reverse] at this
        exact this h
      intro i j m hij hj hm
      have := key i j m hij hj hm
      simp only [hrev]
      exact this

/-- C32: a line with one even level everywhere keeps its order, with one odd level it is reversed; in a right-to-left
line (read from the right) the other way round. -/
theorem C32_uniform {α : Type} (spans : List α) (k : Nat) (hne : spans ≠ []) :
    reorderBidiLine spans (List.replicate spans.length k) .ltr =
      some (if k % 2 = 0 then spans else spans.reverse) ∧
    reorderBidiLine spans (List.replicate spans.length k) .rtl =
      some (if k % 2 = 0 then spans.reverse else spans) := by
  have hrun : ∀ c n, c ≤ k → runLen c (List.replicate n k) = n := by
    intro c n hc
    induction n with
    | zero => rfl
    | succ n ih => simp [List.replicate_succ, runLen, hc, ih]
  have hpass : ∀ c n (xs : List Nat), c ≤ k → xs.length = n → levelPass c (List.replicate n k) xs = xs.reverse := by
    intro c n xs hc hx
    cases n with
    | zero =>
      have : xs = [] := List.length_eq_zero_iff.1 hx
      subst this; rw [List.replicate_zero, levelPass]; rfl
    | succ n =>
      rw [List.replicate_succ, levelPass, ← List.replicate_succ, hrun c (n + 1) hc, if_neg (by omega)]
      have e1 : xs.take (n + 1) = xs := List.take_of_length_le (by omega)
      have e2 : xs.drop (n + 1) = [] := List.drop_of_length_le (by omega)
      have e3 : (List.replicate (n + 1) k).drop (n + 1) = [] := List.drop_of_length_le (by simp)
      rw [e1, e2, e3, levelPass, List.append_nil]
  have hpasses : ∀ c n (xs : List Nat), c ≤ k → xs.length = n →
      levelPasses (List.replicate n k) c xs = if c % 2 = 0 then xs else xs.reverse := by
    intro c
    induction c with
    | zero => intro n xs _ _; rfl
    | succ c ih =>
      intro n xs hc hx
      rw [levelPasses, hpass (c + 1) n xs hc hx, ih n _ (by omega) (by simpa using hx), List.reverse_reverse]
      by_cases h : c % 2 = 0
      · rw [if_pos h, if_neg (by omega)]
      · rw [if_neg h, if_pos (by omega)]
  have hmax : ∀ n, (List.replicate n k).foldl max k = k := by
    intro n; induction n with
    | zero => rfl
    | succ n ih => simp [List.replicate_succ, ih]
  obtain ⟨n, hn⟩ : ∃ n, spans.length = n + 1 := ⟨spans.length - 1, by
    have := List.length_pos_iff.2 hne; omega⟩
  have horder : levelPasses (List.replicate (n + 1) k) ((List.replicate n k).foldl max k) (List.range (n + 1)) =
      if k % 2 = 0 then List.range (n + 1) else (List.range (n + 1)).reverse := by
    rw [hmax]; exact hpasses k (n + 1) _ (le_refl _) (by simp)
  have hpick := pick_range spans
  rw [hn] at hpick
  have hpickr : (List.range (n + 1)).reverse.filterMap (fun i => spans[i]?) = spans.reverse := by
    rw [List.filterMap_reverse, hpick]
  have hv : ∀ dir, visualOrder (List.replicate (n + 1) k) dir = some (match dir with
      | .ltr => levelPasses (List.replicate (n + 1) k) ((List.replicate n k).foldl max k) (List.range (n + 1))
      | .rtl => (levelPasses (List.replicate (n + 1) k) ((List.replicate n k).foldl max k)
          (List.range (n + 1))).reverse) := by
    intro dir
    rw [List.replicate_succ]
    simp only [visualOrder, List.length_cons, List.length_replicate]
    cases dir <;> rfl
  constructor
  · rw [reorderBidiLine, hn, hv, horder]
    by_cases h : k % 2 = 0
    · simp only [h, if_true, Option.map_some, hpick]
    · simp only [h, if_false, Option.map_some, hpickr]
  · rw [reorderBidiLine, hn, hv, horder]
    by_cases h : k % 2 = 0
    · simp only [h, if_true, Option.map_some, hpickr]
    · simp only [h, if_false, Option.map_some, List.reverse_reverse, hpick]

/-- C32, violated by the code: the reordering of a line without spans is undefined. -/
theorem C32_empty_undefined {α : Type} (dir : TextDirection) : reorderBidiLine ([] : List α) [] dir = none := rfl

/-- English text (level 0) around Arabic (level 1) with a number in it (level 2). -/
example : LeastBetween [0, 1, 2, 1, 0] 1 3 1 ∧ LeastBetween [0, 1, 2, 1, 0] 0 4 0 := by
  constructor
  · refine ⟨?_, 1, by omega, by omega, rfl⟩
    intro k l h1 h2 h
    have : k = 1 ∨ k = 2 ∨ k = 3 := by omega
    rcases this with rfl | rfl | rfl <;> simp at h <;> omega
  · refine ⟨fun k l _ _ _ => Nat.zero_le l, 0, by omega, by omega, rfl⟩

/-! ## C72 -/

noncomputable section

/-- The sum of the advances. -/
def width {γ : Type} (gs : List (GlyphInfo γ)) : ℝ := (gs.map (·.advance)).sum

/-- Glyphs placed one after the other from `x` on. -/
def placeFrom {γ : Type} (x : ℝ) : List (GlyphInfo γ) → List (GlyphPlacement γ)
  | [] => []
  | g :: gs => ⟨g.glyph, x, 0⟩ :: placeFrom (x + g.advance) gs

theorem width_cons {γ : Type} (g : GlyphInfo γ) (gs : List (GlyphInfo γ)) : width (g :: gs) = g.advance + width gs := rfl

theorem width_append {γ : Type} (a b : List (GlyphInfo γ)) : width (a ++ b) = width a + width b := by
  simp [width]

theorem placeFrom_append {γ : Type} (x : ℝ) (a b : List (GlyphInfo γ)) :
    placeFrom x (a ++ b) = placeFrom x a ++ placeFrom (x + width a) b := by
  induction a generalizing x with
  | nil => simp [placeFrom, width]
  | cons g a ih =>
    simp only [List.cons_append, placeFrom, ih, width_cons]
    rw [add_assoc]

theorem placeFrom_shift {γ : Type} (x d : ℝ) (gs : List (GlyphInfo γ)) :
    (placeFrom x gs).map (fun p => { p with x := p.x + d }) = placeFrom (x + d) gs := by
  induction gs generalizing x with
  | nil => rfl
  | cons g gs ih =>
    simp only [placeFrom, List.map_cons, ih]
    rw [add_right_comm]

def tops {γ : Type} (gs : List (GlyphInfo γ)) (t : ℝ) : ℝ := gs.foldl (fun t g => max g.ascender t) t
def bottoms {γ : Type} (gs : List (GlyphInfo γ)) (t : ℝ) : ℝ := gs.foldl (fun t g => min g.descender t) t

theorem layoutSpan_eq {γ : Type} (gs : List (GlyphInfo γ)) (x t b : ℝ) :
    layoutSpan gs x t b = (placeFrom x gs, x + width gs, tops gs t, bottoms gs b) := by
  induction gs generalizing x t b with
  | nil => simp [layoutSpan, placeFrom, width, tops, bottoms]
  | cons g gs ih =>
    simp only [layoutSpan, ih, placeFrom, width_cons, tops, bottoms, List.foldl_cons]
    rw [add_assoc]

/-- The spans of a right-to-left line: each ends where the one before it begins. -/
def placeRtl {γ : Type} (right : ℝ) : List (List (GlyphInfo γ)) → List (GlyphPlacement γ)
  | [] => []
  | gs :: rest => placeFrom (right - width gs) gs ++ placeRtl (right - width gs) rest

theorem layoutSpans_ok {σ γ ε : Type} (shape : σ → Except ε (List (GlyphInfo γ))) (dir : TextDirection)
    (spans : List σ) (infos : List (List (GlyphInfo γ))) (h : List.Forall₂ (fun s gs => shape s = .ok gs) spans infos)
    (x t b : ℝ) :
    layoutSpans shape dir spans x t b = .ok ((match dir with
      | .ltr => placeFrom x infos.flatten
      | .rtl => placeRtl (-x) infos), x + width infos.flatten, tops infos.flatten t, bottoms infos.flatten b) := by
  induction h generalizing x t b with
  | nil => cases dir <;> simp [layoutSpans, placeFrom, placeRtl, width, tops, bottoms]
  | cons h _ ih =>
    rename_i s gs ss rest _
    have e1 : tops rest.flatten (tops gs t) = tops (gs :: rest).flatten t := by
      simp [tops, List.foldl_append]
    have e2 : bottoms rest.flatten (bottoms gs b) = bottoms (gs :: rest).flatten b := by
      simp [bottoms, List.foldl_append]
    simp only [layoutSpans, h, layoutSpan_eq, ih, e1, e2, zero_add]
    have e3 : x + width gs + width rest.flatten = x + width (gs :: rest).flatten := by
      rw [List.flatten_cons, width_append, add_assoc]
    rw [e3]
    cases dir with
    | ltr =>
      simp only
      rw [List.flatten_cons, placeFrom_append]
      have := placeFrom_shift 0 x gs
      rw [zero_add] at this
      rw [this]
    | rtl =>
      simp only [placeRtl]
      have : (placeFrom 0 gs).map (fun p => ({ p with x := p.x - x - width gs } : GlyphPlacement γ)) =
          placeFrom (-x - width gs) gs := by
        rw [← zero_add (-x - width gs), ← placeFrom_shift]
        apply List.map_congr_left
        intro p _
        simp only [GlyphPlacement.mk.injEq, true_and, and_true]; ring
      rw [this]
      have e : -(x + width gs) = -x - width gs := by ring
      rw [e]

theorem placeFrom_get {γ : Type} (x : ℝ) (gs : List (GlyphInfo γ)) (k : Nat) :
    (placeFrom x gs)[k]? = gs[k]?.map fun g => ⟨g.glyph, x + width (gs.take k), 0⟩ := by
  induction gs generalizing x k with
  | nil => simp [placeFrom]
  | cons g gs ih =>
    cases k with
    | zero => simp [placeFrom, width]
    | succ k =>
      simp only [placeFrom, List.getElem?_cons_succ, ih, List.take_succ_cons, width_cons]
      simp [add_assoc]

/-- C72: in a left-to-right line every glyph begins where the glyphs before it end, on the base line; the bounding box
begins at 0 and is as wide as all glyphs together. -/
theorem C72_ltr {σ γ ε : Type} (shape : σ → Except ε (List (GlyphInfo γ))) (spans : List σ)
    (infos : List (List (GlyphInfo γ))) (h : List.Forall₂ (fun s gs => shape s = .ok gs) spans infos) :
    ∃ glyphs box, layoutLine shape .ltr spans = .ok (glyphs, box) ∧ box.x = 0 ∧
      box.w = (infos.flatten.map (·.advance)).sum ∧ glyphs.length = infos.flatten.length ∧
      ∀ (k : Nat) (g : GlyphInfo γ), infos.flatten[k]? = some g →
        glyphs[k]? = some ⟨g.glyph, ((infos.flatten.take k).map (·.advance)).sum, 0⟩ := by
  refine ⟨placeFrom 0 infos.flatten, _, by
    rw [layoutLine, layoutSpans_ok shape .ltr spans infos h], rfl, by simp [width], ?_, ?_⟩
  · clear h
    generalize infos.flatten = l
    have : ∀ x : ℝ, (placeFrom x l).length = l.length := by
      induction l with
      | nil => intro x; rfl
      | cons g l ih => intro x; simp [placeFrom, ih]
    exact this 0
  · intro k g hk
    rw [placeFrom_get, hk]; simp [width]

theorem placeRtl_perm {γ : Type} (infos : List (List (GlyphInfo γ))) (right : ℝ) :
    (placeRtl right infos).Perm (placeFrom (right - width infos.flatten) infos.reverse.flatten) := by
  induction infos generalizing right with
  | nil => simp [placeRtl, placeFrom]
  | cons gs rest ih =>
    have hw : width rest.reverse.flatten = width rest.flatten := by
      have hp : (rest.reverse.flatten).Perm rest.flatten := (List.reverse_perm rest).flatten
      exact ((hp.map _).sum_eq)
    simp only [placeRtl, List.reverse_cons, List.flatten_append, List.flatten_cons, List.flatten_nil, List.append_nil,
      placeFrom_append, width_append]
    rw [hw]
    have e1 : right - (width gs + width rest.flatten) = right - width gs - width rest.flatten := by ring
    have e2 : right - (width gs + width rest.flatten) + width rest.flatten = right - width gs := by ring
    rw [e2, e1]
    exact ((List.Perm.refl _).append (ih (right - width gs))).trans List.perm_append_comm

/-- C72: a right-to-left line is, as a drawing, the left-to-right line of its spans in reverse order, moved so that it
ends at 0. -/
theorem C72_rtl {σ γ ε : Type} (shape : σ → Except ε (List (GlyphInfo γ))) (spans : List σ)
    (infos : List (List (GlyphInfo γ))) (h : List.Forall₂ (fun s gs => shape s = .ok gs) spans infos) :
    ∃ glyphs box glyphs' box', layoutLine shape .rtl spans = .ok (glyphs, box) ∧
      layoutLine shape .ltr spans.reverse = .ok (glyphs', box') ∧ box.w = box'.w ∧ box.x = -box.w ∧
      glyphs.Perm (glyphs'.map fun p => { p with x := p.x - box.w }) := by
  have hr : List.Forall₂ (fun s gs => shape s = .ok gs) spans.reverse infos.reverse := List.rel_reverse h
  have hp : (infos.reverse.flatten).Perm infos.flatten := (List.reverse_perm infos).flatten
  have hw : width infos.reverse.flatten = width infos.flatten := (hp.map _).sum_eq
  refine ⟨placeRtl (-0) infos, _, placeFrom 0 infos.reverse.flatten, _, by
    rw [layoutLine, layoutSpans_ok shape .rtl spans infos h], by
    rw [layoutLine, layoutSpans_ok shape .ltr _ _ hr], by simp [hw], by simp, ?_⟩
  simp only [zero_add, neg_zero]
  refine (placeRtl_perm infos 0).trans ?_
  have := placeFrom_shift 0 (-width infos.flatten) infos.reverse.flatten
  simp only [← sub_eq_add_neg] at this
  rw [this]

theorem tops_spec {γ : Type} (gs : List (GlyphInfo γ)) (t : ℝ) :
    t ≤ tops gs t ∧ (∀ g ∈ gs, g.ascender ≤ tops gs t) ∧ (tops gs t = t ∨ ∃ g ∈ gs, tops gs t = g.ascender) := by
  induction gs generalizing t with
  | nil => simp [tops]
  | cons g gs ih =>
    obtain ⟨h1, h2, h3⟩ := ih (max g.ascender t)
    have e : tops (g :: gs) t = tops gs (max g.ascender t) := rfl
    rw [e]
    refine ⟨le_trans (le_max_right _ _) h1, ?_, ?_⟩
    · intro x hx
      rcases List.mem_cons.1 hx with rfl | hx
      · exact le_trans (le_max_left _ _) h1
      · exact h2 x hx
    · rcases h3 with h3 | ⟨x, hx, h3⟩
      · rcases max_choice g.ascender t with hm | hm
        · right; exact ⟨g, by simp, by rw [h3, hm]⟩
        · left; rw [h3, hm]
      · right; exact ⟨x, by simp [hx], h3⟩

theorem bottoms_spec {γ : Type} (gs : List (GlyphInfo γ)) (t : ℝ) :
    bottoms gs t ≤ t ∧ (∀ g ∈ gs, bottoms gs t ≤ g.descender) ∧
      (bottoms gs t = t ∨ ∃ g ∈ gs, bottoms gs t = g.descender) := by
  induction gs generalizing t with
  | nil => simp [bottoms]
  | cons g gs ih =>
    obtain ⟨h1, h2, h3⟩ := ih (min g.descender t)
    have e : bottoms (g :: gs) t = bottoms gs (min g.descender t) := rfl
    rw [e]
    refine ⟨le_trans h1 (min_le_right _ _), ?_, ?_⟩
    · intro x hx
      rcases List.mem_cons.1 hx with rfl | hx
      · exact le_trans h1 (min_le_left _ _)
      · exact h2 x hx
    · rcases h3 with h3 | ⟨x, hx, h3⟩
      · rcases min_choice g.descender t with hm | hm
        · right; exact ⟨g, by simp, by rw [h3, hm]⟩
        · left; rw [h3, hm]
      · right; exact ⟨x, by simp [hx], h3⟩

/-- C72: the bounding box reaches from the lowest descender to the highest ascender, and includes the base line. -/
theorem C72_height {σ γ ε : Type} (shape : σ → Except ε (List (GlyphInfo γ))) (dir : TextDirection) (spans : List σ)
    (infos : List (List (GlyphInfo γ))) (h : List.Forall₂ (fun s gs => shape s = .ok gs) spans infos) :
    ∃ glyphs box, layoutLine shape dir spans = .ok (glyphs, box) ∧ box.y ≤ 0 ∧ 0 ≤ box.y + box.h ∧
      (∀ g ∈ infos.flatten, box.y ≤ g.descender ∧ g.ascender ≤ box.y + box.h) ∧
      (box.y = 0 ∨ ∃ g ∈ infos.flatten, box.y = g.descender) ∧
      (box.y + box.h = 0 ∨ ∃ g ∈ infos.flatten, box.y + box.h = g.ascender) := by
  obtain ⟨t1, t2, t3⟩ := tops_spec infos.flatten 0
  obtain ⟨b1, b2, b3⟩ := bottoms_spec infos.flatten 0
  have e : bottoms infos.flatten 0 + (tops infos.flatten 0 - bottoms infos.flatten 0) = tops infos.flatten 0 := by ring
  refine ⟨_, _, by rw [layoutLine, layoutSpans_ok shape dir spans infos h], b1, ?_, ?_, b3, ?_⟩
  · simp only [e]; exact t1
  · intro g hg
    simp only [e]
    exact ⟨b2 g hg, t2 g hg⟩
  · simp only [e]; exact t3

/-- C72: with advances that are not negative, the glyphs of a left-to-right line do not overlap and lie in the bounding
box. -/
theorem C72_no_overlap {σ γ ε : Type} (shape : σ → Except ε (List (GlyphInfo γ))) (spans : List σ)
    (infos : List (List (GlyphInfo γ))) (h : List.Forall₂ (fun s gs => shape s = .ok gs) spans infos)
    (hadv : ∀ g ∈ infos.flatten, 0 ≤ g.advance) :
    ∃ glyphs box, layoutLine shape .ltr spans = .ok (glyphs, box) ∧
      (∀ (k : Nat) (g : GlyphInfo γ) (p : GlyphPlacement γ), infos.flatten[k]? = some g → glyphs[k]? = some p → box.x ≤ p.x ∧ p.x + g.advance ≤ box.x + box.w) ∧
      (∀ (k k' : Nat) (g : GlyphInfo γ) (p p' : GlyphPlacement γ), k < k' → infos.flatten[k]? = some g → glyphs[k]? = some p → glyphs[k']? = some p' →
        p.x + g.advance ≤ p'.x) := by
  obtain ⟨glyphs, box, h1, h2, h3, h4, h5⟩ := C72_ltr shape spans infos h
  refine ⟨glyphs, box, h1, ?_, ?_⟩
  all_goals revert h5 hadv h3 h4; generalize infos.flatten = l
  · intro hadv h3 h4 h5 k g p hk hp
    rw [h5 k g hk] at hp
    cases hp
    have hkl := (List.getElem?_eq_some_iff.1 hk)
    obtain ⟨hk1, hk2⟩ := hkl
    have hs : l = l.take k ++ g :: l.drop (k + 1) := by
      rw [← hk2, List.getElem_cons_drop, List.take_append_drop]
    have hn1 : 0 ≤ ((l.take k).map (·.advance)).sum :=
      List.sum_nonneg (by simp only [List.mem_map]; rintro _ ⟨x, hx, rfl⟩; exact hadv x (List.mem_of_mem_take hx))
    have hn2 : 0 ≤ ((l.drop (k + 1)).map (·.advance)).sum :=
      List.sum_nonneg (by simp only [List.mem_map]; rintro _ ⟨x, hx, rfl⟩; exact hadv x (List.mem_of_mem_drop hx))
    have hsum : (l.map (·.advance)).sum = ((l.take k).map (·.advance)).sum +
        (g.advance + ((l.drop (k + 1)).map (·.advance)).sum) := by
      conv_lhs => rw [hs]
      simp
    rw [h2, h3, hsum]
    simp only
    constructor <;> linarith
  · intro hadv h3 h4 h5 k k' g p p' hkk hk hp hp'
    have hk'l : k' < l.length := by
      have := (List.getElem?_eq_some_iff.1 hp').1; omega
    rw [h5 k g hk] at hp
    rw [h5 k' _ (List.getElem?_eq_getElem hk'l)] at hp'
    cases hp; cases hp'
    have hk2 := (List.getElem?_eq_some_iff.1 hk)
    obtain ⟨hk1, hk2⟩ := hk2
    have hs : l.take k' = l.take k ++ g :: (l.take k').drop (k + 1) := by
      have hlt : k < (l.take k').length := by rw [List.length_take]; omega
      have e1 : (l.take k').take k = l.take k := by rw [List.take_take]; congr 1; omega
      have e2 : (l.take k')[k] = g := by rw [List.getElem_take]; exact hk2
      conv_lhs => rw [← List.take_append_drop k (l.take k'), e1]
      rw [← List.getElem_cons_drop hlt, e2]
    have hn2 : 0 ≤ (((l.take k').drop (k + 1)).map (·.advance)).sum :=
      List.sum_nonneg (by
        simp only [List.mem_map]; rintro _ ⟨x, hx, rfl⟩
        exact hadv x (List.mem_of_mem_take (List.mem_of_mem_drop hx)))
    have hsum : ((l.take k').map (·.advance)).sum = ((l.take k).map (·.advance)).sum +
        (g.advance + (((l.take k').drop (k + 1)).map (·.advance)).sum) := by
      conv_lhs => rw [hs]
      simp
    simp only [hsum]
    linarith

/-- C72: if a span cannot be shaped, its error is the result. -/
theorem C72_error {σ γ ε : Type} (shape : σ → Except ε (List (GlyphInfo γ))) (dir : TextDirection)
    (before after : List σ) (infos : List (List (GlyphInfo γ)))
    (h : List.Forall₂ (fun s gs => shape s = .ok gs) before infos) (s : σ) (e : ε) (he : shape s = .error e) :
    layoutLine shape dir (before ++ s :: after) = .error e := by
  have : ∀ x t b, layoutSpans shape dir (before ++ s :: after) x t b = .error e := by
    induction h with
    | nil => intro x t b; simp [layoutSpans, he]
    | cons h _ ih => intro x t b; simp only [List.cons_append, layoutSpans, h, ih]
  rw [layoutLine, this]

example : ∃ (shape : Nat → Except Unit (List (GlyphInfo Char))) (infos : List (List (GlyphInfo Char))),
    List.Forall₂ (fun s gs => shape s = .ok gs) [0, 1] infos ∧ ∀ g ∈ infos.flatten, 0 ≤ g.advance :=
  ⟨fun _ => .ok [⟨'a', 5, 9, -2⟩], [[⟨'a', 5, 9, -2⟩], [⟨'a', 5, 9, -2⟩]], .cons rfl (.cons rfl .nil), by simp⟩

end
end Clip
