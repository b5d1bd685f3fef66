import Verif.Props.Draw
import Verif.Props.TextLayout
import Verif.Props.GLayout
import Verif.Props.VMath
set_option linter.unusedSimpArgs false
/-! Property theorems C82 (text elements), C83 (rotated text), C84 (font fallback), C85 (runs of a line). -/
namespace Clip
open Commands Settings Drawing Pictures
variable {φ : Type}

/-! ## C84 -/

/-- C84: a run is shaped with the first font that has all glyphs for it, or else with the last font. -/
theorem C84_fallback (run : φ → Option (List (GlyphInfo (φ × Nat)))) (fonts : List φ) (gs : List (GlyphInfo (φ × Nat))) :
    shapeFallback (asExcept run) fonts = .ok gs ↔ Shaped run fonts gs := by
  induction fonts with
  | nil =>
    constructor
    · intro h; cases h; exact .inl ⟨rfl, rfl⟩
    · rintro (⟨_, rfl⟩ | ⟨b, f, a, h, _⟩)
      · rfl
      · cases b <;> cases h
  | cons f fs ih =>
    cases fs with
    | nil =>
      simp only [shapeFallback, asExcept, Shaped]
      constructor
      · intro h
        refine .inr ⟨[], f, [], rfl, by simp, ?_, .inl rfl⟩
        split at h <;> cases h
        assumption
      · rintro (⟨h, _⟩ | ⟨b, f', a, h, _, h2, _⟩)
        · cases h
        · cases b with
          | nil => cases h; rw [h2]
          | cons x b =>
            simp only [List.cons_append, List.cons.injEq] at h
            exact absurd h.2 (by simp)
    | cons g fs =>
      rw [shapeFallback]
      cases hr : run f with
      | none =>
        simp only [asExcept, hr]
        constructor
        · intro h; cases h
        · rintro (⟨h, _⟩ | ⟨b, f', a, h, h1, h2, _⟩)
          · cases h
          · cases b with
            | nil => cases h; rw [hr] at h2; cases h2
            | cons x b =>
              simp only [List.cons_append, List.cons.injEq] at h
              obtain ⟨rfl, h⟩ := h
              obtain ⟨gs', hg, _⟩ := h1 f (by simp)
              rw [hr] at hg; cases hg
      | some gs' =>
        simp only [asExcept, hr]
        by_cases hall : gs'.all (fun i => decide (i.glyph.2 ≠ 0)) = true
        · rw [if_pos hall]
          have hall' : ∀ g ∈ gs', g.glyph.2 ≠ 0 := by simpa using hall
          constructor
          · intro h; cases h
            exact .inr ⟨[], f, _, rfl, by simp, hr, .inr hall'⟩
          · rintro (⟨h, _⟩ | ⟨b, f', a, h, h1, h2, _⟩)
            · cases h
            · cases b with
              | nil => cases h; rw [hr] at h2; cases h2; rfl
              | cons x b =>
                simp only [List.cons_append, List.cons.injEq] at h
                obtain ⟨rfl, h⟩ := h
                obtain ⟨gs'', hg, i, hi, h0⟩ := h1 f (by simp)
                rw [hr] at hg; cases hg
                exact absurd h0 (hall' i hi)
        · rw [if_neg hall]
          have hex : ∃ i ∈ gs', i.glyph.2 = 0 := by
            simp only [List.all_eq_true, decide_eq_true_eq, not_forall, not_not] at hall
            obtain ⟨i, hi, h0⟩ := hall
            exact ⟨i, hi, h0⟩
          rw [ih]
          constructor
          · rintro (⟨h, _⟩ | ⟨b, f', a, h, h1, h2, h3⟩)
            · cases h
            · refine .inr ⟨f :: b, f', a, by rw [h]; rfl, ?_, h2, h3⟩
              intro x hx
              rcases List.mem_cons.1 hx with rfl | hx
              · exact ⟨gs', hr, hex⟩
              · exact h1 x hx
          · rintro (⟨h, _⟩ | ⟨b, f', a, h, h1, h2, h3⟩)
            · cases h
            · cases b with
              | nil =>
                cases h
                rw [hr] at h2; cases h2
                rcases h3 with h3 | h3
                · cases h3
                · obtain ⟨i, hi, h0⟩ := hex
                  exact absurd h0 (h3 i hi)
              | cons x b =>
                simp only [List.cons_append, List.cons.injEq] at h
                obtain ⟨rfl, h⟩ := h
                exact .inr ⟨b, f', a, h, fun y hy => h1 y (by simp [hy]), h2, h3⟩

/-! ## C85 -/

theorem cut_head (l cur : Nat) (ls : List Nat) (text : Str) :
    ∃ r rs, cutRuns (levelRuns l cur ls) text = r :: rs ∧ r.2 = l := by
  induction ls generalizing cur with
  | nil => exact ⟨_, _, rfl, rfl⟩
  | cons l' ls ih =>
    simp only [levelRuns]
    split
    · exact ⟨_, _, rfl, rfl⟩
    · exact ih _

theorem cut_runs (l cur : Nat) (ls : List Nat) (text : Str) (hc : 0 < cur) (hl : cur + ls.length = text.length) :
    IsRuns (List.replicate cur l ++ ls) text (cutRuns (levelRuns l cur ls) text) := by
  have hdir : ∀ k : Nat, ((if k % 2 = 1 then TextDirection.rtl else .ltr) = .rtl) ↔ k % 2 = 1 := by
    intro k; split <;> simp_all
  induction ls generalizing l cur text with
  | nil =>
    simp only [List.length_nil, add_zero] at hl
    have ht : text.take cur = text := List.take_of_length_le (by omega)
    refine ⟨by simp [levelRuns, cutRuns, ht], by simp [levelRuns, cutRuns, ht, hl], ?_, ?_⟩
    · intro r hr
      simp only [levelRuns, cutRuns, List.mem_singleton] at hr
      subst hr
      refine ⟨?_, hdir l⟩
      rw [ht]; intro h; subst h; simp at hl; omega
    · simp [levelRuns, cutRuns]
  | cons l' ls ih =>
    simp only [levelRuns]
    simp only [List.length_cons] at hl
    by_cases hne : l' ≠ l
    · rw [if_pos hne]
      have hd : (text.drop cur).length = 1 + ls.length := by rw [List.length_drop]; omega
      obtain ⟨i1, i2, i3, i4⟩ := ih l' 1 (text.drop cur) (by omega) hd.symm
      obtain ⟨r, rs, hrs, hr⟩ := cut_head l' 1 ls (text.drop cur)
      simp only [cutRuns]
      have htl : (text.take cur).length = cur := by rw [List.length_take]; omega
      refine ⟨?_, ?_, ?_, ?_⟩
      · rw [List.map_cons, List.flatten_cons, i1]; exact List.take_append_drop _ _
      · rw [List.map_cons, List.flatten_cons, i2, htl]; simp
      · intro r hr
        rcases List.mem_cons.1 hr with rfl | hr
        · refine ⟨?_, hdir l⟩
          intro h; simp only at h; rw [h] at htl; simp at htl; omega
        · exact i3 r hr
      · rw [hrs] at i4 ⊢
        exact List.IsChain.cons_cons (by simp only [hr]; exact fun h => hne h.symm) i4
    · rw [if_neg hne]
      have : l' = l := by simpa using hne
      subst this
      have := ih l' (cur + 1) text (by omega) (by omega)
      rwa [List.replicate_succ', List.append_assoc] at this

/-- C85: a line of text is cut into runs of one direction; nothing is lost and no run could be longer.  An empty line is
undefined behaviour. -/
theorem C85_runs (T : TextEnv φ) (dir : TextDirection) (text : Str) (levels : List Nat) (h : T.levels dir text = some levels)
    (hl : levels.length = text.length) :
    (text ≠ [] → ∃ runs, analyzeBidi T dir text = .ok runs ∧ IsRuns levels text runs) ∧
    (text = [] → analyzeBidi T dir text = .error .undefined) := by
  unfold analyzeBidi
  rw [h]
  constructor
  · intro hne
    cases levels with
    | nil => exact absurd (List.length_eq_zero_iff.1 hl.symm) hne
    | cons l ls => exact ⟨_, rfl, cut_runs l 1 ls text (by omega) (by simpa [add_comm] using hl)⟩
  · rintro rfl
    cases levels with
    | nil => rfl
    | cons l ls => simp at hl

theorem isRuns_cons {levels : List Nat} {text : Str} {r : TextRun × Nat} {rs : List (TextRun × Nat)}
    (h : IsRuns levels text (r :: rs)) :
    levels.takeWhile (· == r.2) = List.replicate r.1.text.length r.2 ∧
    IsRuns (levels.drop r.1.text.length) (text.drop r.1.text.length) rs ∧ r.1.text = text.take r.1.text.length ∧
    r.1.text ≠ [] ∧ (r.1.dir = .rtl ↔ r.2 % 2 = 1) := by
  obtain ⟨h1, h2, h3, h4⟩ := h
  rw [List.map_cons, List.flatten_cons] at h1 h2
  subst h1 h2
  refine ⟨?_, ⟨by simp, by simp, fun x hx => h3 x (by simp [hx]), h4.tail⟩, by simp, (h3 r (by simp)).1, (h3 r (by simp)).2⟩
  have e : ∀ X : List Nat, X.takeWhile (· == r.2) = [] →
      (List.replicate r.1.text.length r.2 ++ X).takeWhile (· == r.2) = List.replicate r.1.text.length r.2 := by
    intro X hX
    rw [List.takeWhile_append_of_pos (by intro a ha; simp [List.eq_of_mem_replicate ha]), hX, List.append_nil]
  apply e
  cases rs with
  | nil => rfl
  | cons r' rs =>
    have hne : r.2 ≠ r'.2 := by
      rw [List.isChain_cons_cons] at h4; exact h4.1
    have hlen : r'.1.text.length ≠ 0 := by
      have := (h3 r' (by simp)).1
      simpa using this
    obtain ⟨n, hn⟩ := Nat.exists_eq_succ_of_ne_zero hlen
    rw [List.map_cons, List.flatten_cons, hn, List.replicate_succ, List.cons_append, List.takeWhile_cons_of_neg]
    simpa using fun h => hne h.symm

/-- C85: a text has only one division into runs. -/
theorem C85_unique (levels : List Nat) (text : Str) (runs runs' : List (TextRun × Nat)) (h : IsRuns levels text runs)
    (h' : IsRuns levels text runs') : runs = runs' := by
  induction runs generalizing levels text runs' with
  | nil =>
    cases runs' with
    | nil => rfl
    | cons r rs =>
      exfalso
      have h1 := h.1
      have := (isRuns_cons h').2.2
      simp at h1
      subst h1
      exact this.2.1 (by rw [this.1]; simp)
  | cons r rs ih =>
    cases runs' with
    | nil =>
      exfalso
      have h1 := h'.1
      have := (isRuns_cons h).2.2
      simp at h1
      subst h1
      exact this.2.1 (by rw [this.1]; simp)
    | cons r' rs' =>
      obtain ⟨a1, a2, a3, a4, a5⟩ := isRuns_cons h
      obtain ⟨b1, b2, b3, b4, b5⟩ := isRuns_cons h'
      have hlv : r.2 = r'.2 := by
        have e1 := h.2.1
        have e2 := h'.2.1
        rw [← e1] at e2
        obtain ⟨n, hn⟩ := Nat.exists_eq_succ_of_ne_zero (show r.1.text.length ≠ 0 by simpa using a4)
        obtain ⟨m, hm⟩ := Nat.exists_eq_succ_of_ne_zero (show r'.1.text.length ≠ 0 by simpa using b4)
        rw [List.map_cons, List.flatten_cons, List.map_cons, List.flatten_cons, hn, hm, List.replicate_succ,
          List.replicate_succ, List.cons_append, List.cons_append] at e2
        exact (List.cons.inj e2).1.symm
      have hlen : r.1.text.length = r'.1.text.length := by
        rw [hlv] at a1
        rw [a1] at b1
        simpa using congrArg List.length b1
      have ht : r.1.text = r'.1.text := by rw [a3, b3, hlen]
      have hd : r.1.dir = r'.1.dir := by
        have : r.1.dir = .rtl ↔ r'.1.dir = .rtl := by rw [a5, b5, hlv]
        generalize r.1.dir = d1 at this
        generalize r'.1.dir = d2 at this
        cases d1 <;> cases d2 <;> first | rfl | exact absurd this (by decide)
      have hr : r = r' := by
        obtain ⟨⟨t, d⟩, l⟩ := r
        obtain ⟨⟨t', d'⟩, l'⟩ := r'
        simp only at ht hd hlv
        subst ht hd hlv
        rfl
      rw [hr, ih _ _ rs' a2 (by rw [hlen]; exact b2)]

/-- `ab` left to right, `CD` right to left, `3` a number in it. -/
example : IsRuns [0, 0, 1, 1, 2] ['a', 'b', 'C', 'D', '3']
    [(⟨['a', 'b'], .ltr⟩, 0), (⟨['C', 'D'], .rtl⟩, 1), (⟨['3'], .ltr⟩, 2)] := by
  refine ⟨rfl, rfl, ?_, by simp⟩
  simp

/-! ## C82 -/

noncomputable section

theorem before_total {n : Nat} {order : List Nat} (hp : order.Perm (List.range n)) (i j : Nat) (hi : i < n) (hj : j < n)
    (hne : i ≠ j) : Bidi.Before order i j ∨ Bidi.Before order j i := by
  have hmem : ∀ x, x < n → ∃ p : Nat, order[p]? = some x := by
    intro x hx
    have : x ∈ order := hp.mem_iff.2 (List.mem_range.2 hx)
    obtain ⟨p, hp, e⟩ := List.getElem_of_mem this
    exact ⟨p, by rw [List.getElem?_eq_getElem hp, e]⟩
  obtain ⟨p, hp⟩ := hmem i hi
  obtain ⟨q, hq⟩ := hmem j hj
  rcases Nat.lt_trichotomy p q with h | h | h
  · exact .inl ⟨p, q, h, hp, hq⟩
  · subst h; rw [hp] at hq; cases hq; exact absurd rfl hne
  · exact .inr ⟨q, p, h, hq, hp⟩

theorem before_asymm {n : Nat} {order : List Nat} (hp : order.Perm (List.range n)) {i j : Nat}
    (h : Bidi.Before order i j) (h' : Bidi.Before order j i) : False := by
  obtain ⟨p, q, h1, h2, h3⟩ := h
  obtain ⟨p', q', k1, k2, k3⟩ := h'
  have hnd : order.Nodup := hp.nodup_iff.2 List.nodup_range
  have huniq : ∀ p p' x : Nat, order[p]? = some x → order[p']? = some x → p = p' := by
    intro p p' x h1 h2
    obtain ⟨a1, b1⟩ := List.getElem?_eq_some_iff.1 h1
    obtain ⟨a2, b2⟩ := List.getElem?_eq_some_iff.1 h2
    exact (List.Nodup.getElem_inj_iff hnd).1 (b1.trans b2.symm)
  have := huniq _ _ _ h2 k3
  have := huniq _ _ _ h3 k2
  omega

theorem least_exists (levels : List Nat) (i j : Nat) (hij : i ≤ j) (hj : j < levels.length) :
    ∃ m, Bidi.LeastBetween levels i j m := by
  induction j with
  | zero =>
    have : i = 0 := by omega
    subst this
    refine ⟨levels[0], ?_, 0, le_refl _, le_refl _, List.getElem?_eq_getElem hj⟩
    intro k l h1 h2 h
    have : k = 0 := by omega
    subst this
    rw [List.getElem?_eq_getElem hj] at h; cases h; exact le_refl _
  | succ j ih =>
    by_cases h : i = j + 1
    · subst h
      refine ⟨levels[j+1], ?_, j+1, le_refl _, le_refl _, List.getElem?_eq_getElem hj⟩
      intro k l h1 h2 h
      have : k = j+1 := by omega
      subst this
      rw [List.getElem?_eq_getElem hj] at h; cases h; exact le_refl _
    · obtain ⟨m, h1, k, h2, h3, h4⟩ := ih (by omega) (by omega)
      rcases le_total m levels[j+1] with hm | hm
      · refine ⟨m, ?_, k, h2, by omega, h4⟩
        intro k' l a b c
        by_cases hk : k' = j + 1
        · subst hk; rw [List.getElem?_eq_getElem hj] at c; cases c; exact hm
        · exact h1 k' l a (by omega) c
      · refine ⟨levels[j+1], ?_, j+1, by omega, le_refl _, List.getElem?_eq_getElem hj⟩
        intro k' l a b c
        by_cases hk : k' = j + 1
        · subst hk; rw [List.getElem?_eq_getElem hj] at c; cases c; exact le_refl _
        · exact le_trans hm (h1 k' l a (by omega) c)

/-- There is only one display order. -/
theorem visualOrder_unique {levels o o' : List Nat} (h : VisualOrder levels o) (h' : VisualOrder levels o') : o = o' := by
  obtain ⟨hp, hb⟩ := h
  obtain ⟨hp', hb'⟩ := h'
  have key : ∀ i j, i < levels.length → j < levels.length → Bidi.Before o i j → Bidi.Before o' i j := by
    intro i j hi hj h
    rcases Nat.lt_trichotomy i j with hij | hij | hij
    · obtain ⟨m, hm⟩ := least_exists levels i j (by omega) hj
      exact (hb' i j m hij hj hm).1.2 ((hb i j m hij hj hm).1.1 h)
    · subst hij; exact (before_asymm hp h h).elim
    · obtain ⟨m, hm⟩ := least_exists levels j i (by omega) hi
      exact (hb' j i m hij hi hm).2.2 ((hb j i m hij hi hm).2.1 h)
  have hlt : ∀ x ∈ o, x < levels.length := fun x hx => List.mem_range.1 (hp.mem_iff.1 hx)
  have hlt' : ∀ x ∈ o', x < levels.length := fun x hx => List.mem_range.1 (hp'.mem_iff.1 hx)
  have pw : ∀ l : List Nat, l.Pairwise (Bidi.Before l) := by
    intro l
    rw [List.pairwise_iff_getElem]
    intro i j hi hj hij
    exact ⟨i, j, hij, List.getElem?_eq_getElem hi, List.getElem?_eq_getElem hj⟩
  refine List.Perm.eq_of_pairwise (le := Bidi.Before o') ?_ ?_ (pw o') (hp.trans hp'.symm)
  · intro a b _ _ h1 h2; exact (before_asymm hp' h1 h2).elim
  · refine (pw o).imp_of_mem ?_
    intro a b ha hb h
    exact key a b (hlt a ha) (hlt b hb) h

theorem forall₂_filterMap {α : Type} (spans : List α) (order : List Nat) (h : ∀ i ∈ order, i < spans.length) :
    List.Forall₂ (fun i s => spans[i]? = some s) order (order.filterMap fun i => spans[i]?) := by
  induction order with
  | nil => exact .nil
  | cons i order ih =>
    have hi := h i (by simp)
    rw [List.filterMap_cons_some (List.getElem?_eq_getElem hi)]
    exact .cons (List.getElem?_eq_getElem hi) (ih fun j hj => h j (by simp [hj]))

theorem forall₂_comp {α β γ : Type} {R : α → β → Prop} {S : β → γ → Prop} {as : List α} {bs : List β} {cs : List γ}
    (h : List.Forall₂ R as bs) (h' : List.Forall₂ S bs cs) : List.Forall₂ (fun a c => ∃ b, R a b ∧ S b c) as cs := by
  induction h generalizing cs with
  | nil => cases h'; exact .nil
  | cons r _ ih => cases h' with
    | cons s h' => exact .cons ⟨_, r, s⟩ (ih h')

/-- The two relations are functions, so the second list is unique. -/
theorem forall₂_unique {α β : Type} {R : α → β → Prop} (hf : ∀ a b b', R a b → R a b' → b = b') {as : List α}
    {bs bs' : List β} (h : List.Forall₂ R as bs) (h' : List.Forall₂ R as bs') : bs = bs' := by
  induction h generalizing bs' with
  | nil => cases h'; rfl
  | cons r _ ih => cases h' with
    | cons s h' => rw [hf _ _ _ r s, ih h']

theorem layoutSpans_inv {σ γ ε : Type} (shape : σ → Except ε (List (GlyphInfo γ))) (dir : TextDirection) (spans : List σ)
    (x t b : ℝ) (r : List (GlyphPlacement γ) × ℝ × ℝ × ℝ) (h : layoutSpans shape dir spans x t b = .ok r) :
    ∃ infos, List.Forall₂ (fun s gs => shape s = .ok gs) spans infos := by
  induction spans generalizing x t b r with
  | nil => exact ⟨[], .nil⟩
  | cons s ss ih =>
    rw [layoutSpans] at h
    cases hs : shape s with
    | error e => rw [hs] at h; cases h
    | ok gs =>
      rw [hs] at h
      simp only at h
      split at h
      · cases h
      · rename_i rest r' hr
        obtain ⟨infos, hi⟩ := ih _ _ _ _ hr
        exact ⟨gs :: infos, .cons hs hi⟩

/-- The shapes of glyphs from `x` on. -/
def shapesFrom {γ : Type} (op : TextOp φ) (offset : Vec2) : ℝ → List (GlyphInfo γ) → List Path → List DrawCmd
  | x, g :: gs, p :: ps =>
    ⟨pathTransform p (match op.transform with
      | some t => t.mul (translate2 ⟨x + offset.x, 0 + offset.y⟩)
      | none => translate2 ⟨x + offset.x, 0 + offset.y⟩), op.style, false⟩ :: shapesFrom op offset (x + g.advance) gs ps
  | _, _, _ => []

open Classical in
theorem drawGlyphs_iff (T : TextEnv φ) (sp dpi : ℝ) (offset : Vec2) (op : TextOp φ) (gs : List (GlyphInfo (φ × Nat)))
    (x : ℝ) (dl dl' : List DrawCmd) :
    drawGlyphs T sp dpi offset op (placeFrom x gs) dl = (dl', none) ↔
      ∃ ps, List.Forall₂ (fun g p => T.glyphPath g.glyph.1 sp dpi g.glyph.2 = some p) gs ps ∧
        dl' = dl ++ shapesFrom op offset x gs ps := by
  induction gs generalizing x dl with
  | nil =>
    simp only [placeFrom, drawGlyphs, Prod.mk.injEq, and_true]
    constructor
    · rintro rfl; exact ⟨[], .nil, by simp [shapesFrom]⟩
    · rintro ⟨ps, h, rfl⟩; simp [shapesFrom]
  | cons g gs ih =>
    simp only [placeFrom, drawGlyphs]
    cases hp : T.glyphPath g.glyph.1 sp dpi g.glyph.2 with
    | none =>
      simp only [Prod.mk.injEq, reduceCtorEq, and_false, false_iff]
      rintro ⟨ps, h, _⟩
      cases h with
      | cons h _ => rw [hp] at h; cases h
    | some p =>
      simp only [ih, drawShape]
      constructor
      · rintro ⟨ps, h, rfl⟩
        refine ⟨p :: ps, .cons hp h, ?_⟩
        rw [List.append_assoc]
        simp [shapesFrom, addFill, addStroke]; cases op.transform <;> rfl
      · rintro ⟨ps, h, rfl⟩
        cases h with
        | cons h hs =>
          rw [hp] at h; cases h
          refine ⟨_, hs, ?_⟩
          rw [List.append_assoc]
          simp [shapesFrom, addFill, addStroke]; cases op.transform <;> rfl

theorem top_unique {vs : List ℝ} {t t' : ℝ} (h : Top vs t) (h' : Top vs t') : t = t' := by
  have one : ∀ t t', Top vs t → Top vs t' → t ≤ t' := by
    rintro t t' ⟨h1 | h1, h2, h3⟩ ⟨_, k2, k3⟩
    · rw [h1]; exact k2
    · exact k3 t h1
  exact le_antisymm (one _ _ h h') (one _ _ h' h)

theorem bottom_unique {vs : List ℝ} {t t' : ℝ} (h : Bottom vs t) (h' : Bottom vs t') : t = t' := by
  have one : ∀ t t', Bottom vs t → Bottom vs t' → t' ≤ t := by
    rintro t t' ⟨h1 | h1, h2, h3⟩ ⟨_, k2, k3⟩
    · rw [h1]; exact k2
    · exact k3 t h1
  exact le_antisymm (one _ _ h' h) (one _ _ h h')

theorem shaped_unique {run : φ → Option (List (GlyphInfo (φ × Nat)))} {fonts : List φ} {gs gs' : List (GlyphInfo (φ × Nat))}
    (h : Shaped run fonts gs) (h' : Shaped run fonts gs') : gs = gs' := by
  rw [← C84_fallback] at h h'
  rw [h] at h'
  exact Except.ok.inj h'

theorem typeset_unique {T : TextEnv φ} {fonts : List φ} {sp dpi : ℝ} {text : Str} {g g' : List (GlyphInfo (φ × Nat))}
    (h : Typeset T fonts sp dpi text g) (h' : Typeset T fonts sp dpi text g') : g = g' := by
  obtain ⟨levels, runs, order, shaped, h1, h2, h3, h4, rfl⟩ := h
  obtain ⟨levels', runs', order', shaped', k1, k2, k3, k4, rfl⟩ := h'
  rw [h1] at k1; cases k1
  have := C85_unique _ _ _ _ h2 k2
  subst this
  have := visualOrder_unique h3 k3
  subst this
  rw [forall₂_unique ?_ h4 k4]
  rintro i a b ⟨r, hr, ha⟩ ⟨r', hr', hb⟩
  rw [hr] at hr'; cases hr'
  exact shaped_unique ha hb

theorem drawText_iff (T : TextEnv φ) (hT : LevelsOfChars T) (L L' : Layer φ) (op : TextOp φ) (hd : op.direction = .ltr) :
    drawText T L op = (L', none) ↔ op.text ≠ [] ∧ ∃ glyphs ps top bottom,
      Typeset T op.fonts (op.fontSize / L.size.dpi * 72) L.size.dpi op.text glyphs ∧
      List.Forall₂ (fun g p => T.glyphPath g.glyph.1 (op.fontSize / L.size.dpi * 72) L.size.dpi g.glyph.2 = some p) glyphs ps ∧
      Top (glyphs.map (·.ascender)) top ∧ Bottom (glyphs.map (·.descender)) bottom ∧
      L' = draw L (shapesFrom op
        (layoutAlign ⟨0, bottom, (glyphs.map (·.advance)).sum, top - bottom⟩ op.position op.alignX op.alignY) 0 glyphs ps) := by
  unfold drawText unitToPt Pictures.draw
  rw [hd]
  cases hlv : T.levels .ltr op.text with
  | none =>
    simp only [analyzeBidi, hlv]
    constructor
    · intro h; cases h
    · rintro ⟨_, _, _, _, _, ⟨_, _, _, _, h, _⟩, _⟩
      rw [hlv] at h; cases h
  | some levels =>
    obtain ⟨c1, c2⟩ := C85_runs T .ltr op.text levels hlv (hT _ _ _ hlv)
    by_cases hne : op.text = []
    · rw [c2 hne]
      constructor
      · intro h; cases h
      · rintro ⟨h, _⟩; exact absurd hne h
    · obtain ⟨runs, hr, hruns⟩ := c1 hne
      rw [hr]
      have hrne : runs.map (·.2) ≠ [] := by
        intro h
        rw [List.map_eq_nil_iff] at h
        subst h
        exact hne hruns.1.symm
      obtain ⟨order, ho, hperm, hbefore⟩ := C32_order (runs.map (·.2)) .ltr hrne
      have hvo : VisualOrder (runs.map (·.2)) order := ⟨hperm, hbefore⟩
      simp only [reorderBidiLine, ho, Option.map_some]
      set spans := runs.map (·.1) with hspans
      have hlt : ∀ i ∈ order, i < spans.length := by
        intro i hi
        have := List.mem_range.1 (hperm.mem_iff.1 hi)
        simpa [hspans] using this
      have hfm := forall₂_filterMap spans order hlt
      set out := order.filterMap fun i => spans[i]? with hout
      set sp := op.fontSize / L.size.dpi * 72 with hsp
      have hget : ∀ (i : Nat) s, spans[i]? = some s → ∃ r : TextRun × Nat, runs[i]? = some r ∧ r.1 = s := by
        intro i s h
        rw [hspans, List.getElem?_map] at h
        cases hri : runs[i]? with
        | none => rw [hri] at h; cases h
        | some r => rw [hri] at h; cases h; exact ⟨r, rfl, rfl⟩
      constructor
      · intro h
        refine ⟨hne, ?_⟩
        split at h
        · cases h
        · rename_i glyphs bbox hlay
          rw [layoutLine] at hlay
          split at hlay
          · cases hlay
          · rename_i gl len top bottom hls
            obtain ⟨infos, hi⟩ := layoutSpans_inv _ _ _ _ _ _ _ hls
            have hok := layoutSpans_ok _ .ltr _ _ hi 0 0 0
            rw [hls] at hok
            simp only [Except.ok.injEq, Prod.mk.injEq] at hok
            obtain ⟨rfl, rfl, rfl, rfl⟩ := hok
            cases hlay
            simp only [Prod.mk.injEq] at h
            obtain ⟨rfl, hg⟩ := h
            obtain ⟨ps, hps, hdl⟩ := (drawGlyphs_iff T sp L.size.dpi _ op infos.flatten 0 L.drawlist _).1
              (Prod.ext rfl hg)
            obtain ⟨t1, t2, t3⟩ := tops_spec infos.flatten 0
            obtain ⟨b1, b2, b3⟩ := bottoms_spec infos.flatten 0
            refine ⟨infos.flatten, ps, tops infos.flatten 0, bottoms infos.flatten 0, ?_, hps, ?_, ?_, ?_⟩
            · refine ⟨levels, runs, order, infos, hlv, hruns, hvo, ?_, rfl⟩
              refine (forall₂_comp hfm hi).imp ?_
              rintro i gs ⟨s, h1, h2⟩
              obtain ⟨r, hr1, rfl⟩ := hget i s h1
              rw [C84_fallback] at h2
              exact ⟨r, hr1, h2⟩
            · refine ⟨?_, t1, ?_⟩
              · rcases t3 with h | ⟨g, hg, h⟩
                · exact .inl h
                · exact .inr (List.mem_map.2 ⟨g, hg, h.symm⟩)
              · intro v hv
                obtain ⟨g, hg, rfl⟩ := List.mem_map.1 hv
                exact t2 g hg
            · refine ⟨?_, b1, ?_⟩
              · rcases b3 with h | ⟨g, hg, h⟩
                · exact .inl h
                · exact .inr (List.mem_map.2 ⟨g, hg, h.symm⟩)
              · intro v hv
                obtain ⟨g, hg, rfl⟩ := List.mem_map.1 hv
                exact b2 g hg
            · exact (congrArg (fun d => ({ L with drawlist := d } : Layer φ)) hdl).trans (by simp only [width, zero_add])
      · rintro ⟨_, glyphs, ps, top, bottom, ⟨levels', runs', order', shaped, h1, h2, h3, h4, rfl⟩, hps, htop, hbot, rfl⟩
        rw [hlv] at h1; cases h1
        have := C85_unique _ _ _ _ hruns h2
        subst this
        have := visualOrder_unique hvo h3
        subst this
        have hi : List.Forall₂ (fun s gs => shapeFallback (asExcept fun f => T.shapeRun f s sp L.size.dpi) op.fonts = .ok gs)
            out shaped := by
          have := forall₂_comp hfm.flip h4
          refine this.imp ?_
          rintro s gs ⟨i, hi1, r, hr1, hgs⟩
          obtain ⟨r', hr2, rfl⟩ := hget i s hi1
          rw [hr1] at hr2; cases hr2
          exact (C84_fallback _ _ _).2 hgs
        have hok := layoutSpans_ok _ .ltr _ _ hi 0 0 0
        have hlay : layoutLine (fun s => shapeFallback (asExcept fun f => T.shapeRun f s sp L.size.dpi) op.fonts) .ltr out =
            .ok (placeFrom 0 shaped.flatten, ⟨0, bottoms shaped.flatten 0, 0 + width shaped.flatten,
              tops shaped.flatten 0 - bottoms shaped.flatten 0⟩) := by
          rw [layoutLine, hok]
        obtain ⟨t1, t2, t3⟩ := tops_spec shaped.flatten 0
        obtain ⟨b1, b2, b3⟩ := bottoms_spec shaped.flatten 0
        have ht : Top (shaped.flatten.map (·.ascender)) (tops shaped.flatten 0) := by
          refine ⟨?_, t1, ?_⟩
          · rcases t3 with h | ⟨g, hg, h⟩
            · exact .inl h
            · exact .inr (List.mem_map.2 ⟨g, hg, h.symm⟩)
          · intro v hv
            obtain ⟨g, hg, rfl⟩ := List.mem_map.1 hv
            exact t2 g hg
        have hb : Bottom (shaped.flatten.map (·.descender)) (bottoms shaped.flatten 0) := by
          refine ⟨?_, b1, ?_⟩
          · rcases b3 with h | ⟨g, hg, h⟩
            · exact .inl h
            · exact .inr (List.mem_map.2 ⟨g, hg, h.symm⟩)
          · intro v hv
            obtain ⟨g, hg, rfl⟩ := List.mem_map.1 hv
            exact b2 g hg
        rw [top_unique htop ht, bottom_unique hbot hb]
        have hdg := (drawGlyphs_iff T sp L.size.dpi (layoutAlign ⟨0, bottoms shaped.flatten 0, 0 + width shaped.flatten,
              tops shaped.flatten 0 - bottoms shaped.flatten 0⟩ op.position op.alignX op.alignY) op shaped.flatten 0
              L.drawlist _).2 ⟨ps, hps, rfl⟩
        simp only [hlay, hdg]
        simp only [width, zero_add]

theorem pathTransform_translate (p : Path) (v : Vec2) : pathTransform p (translate2 v) = moved v p := by
  unfold pathTransform moved
  apply List.map_congr_left
  intro c _
  cases c <;> simp [transformCmd, onPoints, translate2, Mat3.apply, Mat3.mulVec, Mat3.zero]

/-- The turn about `pos` of graphics/draw_cmd.cc:124-130. -/
def turnMat (pos : Vec2) (a : ℝ) : Mat3 := (translate2 pos).mul ((rotate2 a).mul (translate2 ⟨-pos.x, -pos.y⟩))

theorem turnMat_apply (pos : Vec2) (a x y : ℝ) : (turnMat pos a).apply x y = turned pos a ⟨x, y⟩ := by
  have haff := C29_inverses pos pos pos pos a a
  have e1 := (C29_actions ⟨-pos.x, -pos.y⟩ pos a x y).1
  have e2 := (C29_actions pos pos a (x - pos.x) (y - pos.y)).2.2
  have hr : (rotate2 a).Affine := haff.2.2.1
  have ht : (translate2 ⟨-pos.x, -pos.y⟩).Affine := (C29_inverses ⟨-pos.x, -pos.y⟩ pos pos pos a a).1
  have hrt : ((rotate2 a).mul (translate2 ⟨-pos.x, -pos.y⟩)).Affine := by
    obtain ⟨a1, a2, a3⟩ := hr
    obtain ⟨b1, b2, b3⟩ := ht
    refine ⟨?_, ?_, ?_⟩ <;> simp [Mat3.mul, a1, a2, a3, b1, b2, b3]
  unfold turnMat
  rw [C29_compose_points _ _ hrt, C29_compose_points _ _ ht, e1]
  simp only [← sub_eq_add_neg]
  rw [(C29_actions pos pos a _ _).1]
  have re := congrArg Complex.re e2
  have im := congrArg Complex.im e2
  simp only [Vec2.toC] at re im
  have ez : (⟨x - pos.x, y - pos.y⟩ : ℂ) = ((x - pos.x : ℝ) : ℂ) + ((y - pos.y : ℝ) : ℂ) * Complex.I := by
    apply Complex.ext <;> simp
  rw [ez] at re im
  unfold turned
  ext
  · simp only [re]; rw [add_comm]
  · simp only [im]; rw [add_comm]

theorem shapesFrom_length {γ : Type} (op : TextOp φ) (offset : Vec2) (x : ℝ) (gs : List (GlyphInfo γ)) (ps : List Path)
    (h : gs.length = ps.length) : (shapesFrom op offset x gs ps).length = gs.length := by
  induction gs generalizing x ps with
  | nil => cases ps <;> rfl
  | cons g gs ih =>
    cases ps with
    | nil => cases h
    | cons p ps => simp only [shapesFrom, List.length_cons]; rw [ih _ _ (by simpa using h)]

theorem shapesFrom_get {γ : Type} (op : TextOp φ) (ht : op.transform = none) (offset : Vec2) (x : ℝ)
    (gs : List (GlyphInfo γ)) (ps : List Path) (h : gs.length = ps.length) (k : Nat) (p : Path) (hk : ps[k]? = some p) :
    (shapesFrom op offset x gs ps)[k]? =
      some ⟨moved ⟨x + offset.x + ((gs.take k).map (·.advance)).sum, offset.y⟩ p, op.style, false⟩ := by
  induction gs generalizing x ps k with
  | nil =>
    cases ps with
    | nil => simp at hk
    | cons p ps => cases h
  | cons g gs ih =>
    cases ps with
    | nil => cases h
    | cons q ps =>
      cases k with
      | zero =>
        simp only [List.getElem?_cons_zero, Option.some.injEq] at hk
        subst hk
        simp only [shapesFrom, ht, pathTransform_translate, List.getElem?_cons_zero, List.take_zero, List.map_nil,
          List.sum_nil, add_zero, zero_add]
      | succ k =>
        simp only [List.getElem?_cons_succ] at hk
        simp only [shapesFrom, List.getElem?_cons_succ, List.take_succ_cons, List.map_cons, List.sum_cons]
        rw [ih (x + g.advance) ps (by simpa using h) k hk]
        congr 4
        ring

theorem placed_iff {γ : Type} (op : TextOp φ) (ht : op.transform = none) (offset : Vec2) (gs : List (GlyphInfo γ))
    (ps : List Path) (h : gs.length = ps.length) (shapes : List DrawCmd) :
    Placed offset op.style gs ps shapes ↔ shapes = shapesFrom op offset 0 gs ps := by
  constructor
  · rintro ⟨h1, h2, h3⟩
    apply List.ext_getElem?
    intro k
    cases hk : ps[k]? with
    | none =>
      rw [List.getElem?_eq_none_iff] at hk
      rw [List.getElem?_eq_none_iff.2 (by omega), List.getElem?_eq_none_iff.2 (by rw [shapesFrom_length _ _ _ _ _ h]; omega)]
    | some p => rw [h3 k p hk, shapesFrom_get op ht offset 0 gs ps h k p hk, zero_add]
  · rintro rfl
    refine ⟨shapesFrom_length _ _ _ _ _ h, h.symm, ?_⟩
    intro k p hk
    rw [shapesFrom_get op ht offset 0 gs ps h k p hk, zero_add]

theorem aligned_iff (start : Vec2) (w bottom top : ℝ) (point : Vec2) (ax : HAlign) (ay : VAlign) :
    Aligned start w bottom top point ax ay ↔ start = layoutAlign ⟨0, bottom, w, top - bottom⟩ point ax ay := by
  have e : ∀ a b : Vec2, a = b ↔ a.x = b.x ∧ a.y = b.y := fun a b => by rw [Vec2.ext_iff]
  rw [e]
  unfold Aligned layoutAlign layoutCenter
  cases ax <;> cases ay <;> simp only <;> constructor <;> rintro ⟨h1, h2⟩ <;> constructor <;> linarith

theorem textShapes_iff (T : TextEnv φ) (op : TextOp φ) (ht : op.transform = none) (dpi : ℝ) (shapes : List DrawCmd) :
    TextShapes T op.fonts op.fontSize dpi op.text op.position op.alignX op.alignY op.style shapes ↔
      ∃ glyphs ps top bottom,
      Typeset T op.fonts (op.fontSize / dpi * 72) dpi op.text glyphs ∧
      List.Forall₂ (fun g p => T.glyphPath g.glyph.1 (op.fontSize / dpi * 72) dpi g.glyph.2 = some p) glyphs ps ∧
      Top (glyphs.map (·.ascender)) top ∧ Bottom (glyphs.map (·.descender)) bottom ∧
      shapes = shapesFrom op (layoutAlign ⟨0, bottom, (glyphs.map (·.advance)).sum, top - bottom⟩ op.position op.alignX
        op.alignY) 0 glyphs ps := by
  constructor
  · rintro ⟨glyphs, ps, start, top, bottom, h1, h2, h3, h4, h5, h6⟩
    rw [aligned_iff] at h5
    subst h5
    rw [placed_iff op ht _ _ _ h2.length_eq] at h6
    exact ⟨glyphs, ps, top, bottom, h1, h2, h3, h4, h6⟩
  · rintro ⟨glyphs, ps, top, bottom, h1, h2, h3, h4, h5⟩
    exact ⟨glyphs, ps, _, top, bottom, h1, h2, h3, h4, (aligned_iff _ _ _ _ _ _ _).2 rfl,
      (placed_iff op ht _ _ _ h2.length_eq _).2 h5⟩

/-- C82: drawing a line of text succeeds exactly if the text is not empty and can be shaped with glyphs that have an
outline; it then adds one shape for each glyph: the outlines of the glyphs, in the order of display, each beginning where
the one before it ends, and all together aligned to the point. -/
theorem C82_draw (T : TextEnv φ) (hT : LevelsOfChars T) (L L' : Layer φ) (text : Str) (point : Vec2) (ax : HAlign)
    (ay : VAlign) (fonts : List φ) (size : ℝ) (style : Compound) :
    drawText T L ⟨text, point, ax, ay, fonts, size, .ltr, style, none⟩ = (L', none) ↔
      text ≠ [] ∧ ∃ shapes, TextShapes T fonts size L.size.dpi text point ax ay style shapes ∧ L' = draw L shapes := by
  rw [drawText_iff T hT L L' _ rfl]
  have := textShapes_iff T ⟨text, point, ax, ay, fonts, size, .ltr, style, none⟩ rfl L.size.dpi
  simp only at this ⊢
  simp only [this]
  constructor
  · rintro ⟨h, glyphs, ps, top, bottom, h1, h2, h3, h4, h5⟩
    exact ⟨h, _, ⟨glyphs, ps, top, bottom, h1, h2, h3, h4, rfl⟩, h5⟩
  · rintro ⟨h, _, ⟨glyphs, ps, top, bottom, h1, h2, h3, h4, rfl⟩, h5⟩
    exact ⟨h, glyphs, ps, top, bottom, h1, h2, h3, h4, h5⟩

/-- C82: the shapes of a text are unique. -/
theorem C82_unique (T : TextEnv φ) (fonts : List φ) (size dpi : ℝ) (text : Str) (point : Vec2) (ax : HAlign) (ay : VAlign)
    (style : Compound) (shapes shapes' : List DrawCmd) (h : TextShapes T fonts size dpi text point ax ay style shapes)
    (h' : TextShapes T fonts size dpi text point ax ay style shapes') : shapes = shapes' := by
  have := textShapes_iff T ⟨text, point, ax, ay, fonts, size, .ltr, style, none⟩ rfl dpi
  simp only at this
  rw [this] at h h'
  obtain ⟨g, p, t, b, h1, h2, h3, h4, rfl⟩ := h
  obtain ⟨g', p', t', b', k1, k2, k3, k4, rfl⟩ := h'
  have := typeset_unique h1 k1
  subst this
  have := forall₂_unique (R := fun (g : GlyphInfo (φ × Nat)) p => T.glyphPath g.glyph.1 (size / dpi * 72) dpi g.glyph.2 = some p)
    (fun a b b' e e' => Option.some.inj (e.symm.trans e')) h2 k2
  subst this
  rw [top_unique h3 k3, bottom_unique h4 k4]

/-- C82 (violated by the code): a text element whose text is empty, or not given, is undefined behaviour. -/
theorem C82_empty_undefined (T : TextEnv φ) (L : Layer φ) (op : TextOp φ) (ht : op.text = [])
    (h : T.levels op.direction [] = some []) : drawText T L op = (L, some .undefined) := by
  unfold drawText analyzeBidi
  rw [ht, h]

/-- C82: drawing text never changes anything but the drawing, to which shapes are only added. -/
theorem C82_frame (T : TextEnv φ) (L : Layer φ) (op : TextOp φ) :
    ∃ shapes, (drawText T L op).1 = draw L shapes := by
  have hg : ∀ sp dpi off (gs : List (GlyphPlacement (φ × Nat))) dl,
      ∃ shapes, (drawGlyphs T sp dpi off op gs dl).1 = dl ++ shapes := by
    intro sp dpi off gs
    induction gs with
    | nil => intro dl; exact ⟨[], by simp [drawGlyphs]⟩
    | cons g gs ih =>
      intro dl
      simp only [drawGlyphs]
      cases T.glyphPath g.glyph.1 sp dpi g.glyph.2 with
      | none => exact ⟨[], by simp⟩
      | some gp =>
        simp only
        obtain ⟨s, hs⟩ := ih (drawShape dl (pathTransform gp (match op.transform with
          | some t => t.mul (translate2 ⟨g.x + off.x, g.y + off.y⟩)
          | none => translate2 ⟨g.x + off.x, g.y + off.y⟩)) op.style ⟨0, .black, none⟩ ⟨none, none⟩ false)
        refine ⟨_, Eq.trans ?_ (hs.trans (by rw [drawShape, List.append_assoc]))⟩
        cases op.transform <;> rfl
  have nil : ∃ shapes, L = draw L shapes := ⟨[], by simp [Pictures.draw]⟩
  unfold drawText
  simp only
  split
  · exact nil
  · split
    · exact nil
    · split
      · exact nil
      · rename_i glyphs bbox _
        obtain ⟨s, hs⟩ := hg (unitToPt op.fontSize L.size.dpi) L.size.dpi (layoutAlign bbox op.position op.alignX op.alignY)
          glyphs L.drawlist
        refine ⟨s, ?_⟩
        unfold Pictures.draw
        simp only [hs]

/-! ## C83 -/

theorem pathTransform_turn (p : Path) (pos : Vec2) (a : ℝ) : pathTransform p (turnMat pos a) = p.map (onPoints (turned pos a)) := by
  unfold pathTransform
  apply List.map_congr_left
  intro c _
  cases c <;> simp only [transformCmd, onPoints, turnMat_apply]

/-- The shape with all points turned. -/
def turnShape (pos : Vec2) (a : ℝ) (c : DrawCmd) : DrawCmd := { c with path := c.path.map (onPoints (turned pos a)) }

theorem shapesFrom_turn {γ : Type} (op : TextOp φ) (ht : op.transform = none) (pos : Vec2) (a : ℝ) (offset : Vec2) (x : ℝ)
    (gs : List (GlyphInfo γ)) (ps : List Path) :
    shapesFrom { op with transform := some (turnMat pos a) } offset x gs ps =
      (shapesFrom op offset x gs ps).map (turnShape pos a) := by
  induction gs generalizing x ps with
  | nil => cases ps <;> rfl
  | cons g gs ih =>
    cases ps with
    | nil => rfl
    | cons p ps =>
      simp only [shapesFrom, ht, List.map_cons, ih, turnShape]
      congr 2
      rw [← (C30_transform_compose p (turnMat pos a) _ (C29_inverses _ pos pos pos a a).1).1, pathTransform_turn]

theorem turned_zero (pos q : Vec2) : turned pos 0 q = q := by
  unfold turned
  ext <;> simp

theorem turnShape_zero (pos : Vec2) (c : DrawCmd) : turnShape pos 0 c = c := by
  unfold turnShape
  have : c.path.map (onPoints (turned pos 0)) = c.path := by
    conv_rhs => rw [← List.map_id c.path]
    apply List.map_congr_left
    intro k _
    cases k <;> simp [onPoints, turned_zero]
  rw [this]

/-- C83: rotated text is the text without a rotation, with all shapes turned clockwise about the point by the angle in
degrees. -/
theorem C83_rotated (T : TextEnv φ) (hT : LevelsOfChars T) (L L' : Layer φ) (text : Str) (point : Vec2) (ax : HAlign)
    (ay : VAlign) (a : ℝ) (fonts : List φ) (size : ℝ) (color : Color) :
    drawTextRotated T L text point ax ay a fonts size color = (L', none) ↔
      text ≠ [] ∧ ∃ shapes, TextShapes T fonts size L.size.dpi text point ax ay ⟨[color], [], [], []⟩ shapes ∧
        L' = draw L (shapes.map fun c => { c with path := c.path.map (onPoints (turned point a)) }) := by
  by_cases ha : a = 0
  · subst ha
    have e : (fun c : DrawCmd => ({ c with path := c.path.map (onPoints (turned point 0)) } : DrawCmd)) = id :=
      funext fun c => turnShape_zero point c
    unfold drawTextRotated
    rw [if_neg (by simp), C82_draw T hT, e]
    simp only [List.map_id]
  · have e : drawTextRotated T L text point ax ay a fonts size color = drawText T L
        { (⟨text, point, ax, ay, fonts, size, .ltr, ⟨[color], [], [], []⟩, none⟩ : TextOp φ) with
          transform := some (turnMat point a) } := by
      unfold drawTextRotated
      rw [if_pos ha]
      rfl
    rw [e, drawText_iff T hT L L' _ rfl]
    have := textShapes_iff T ⟨text, point, ax, ay, fonts, size, .ltr, ⟨[color], [], [], []⟩, none⟩ rfl L.size.dpi
    simp only at this
    simp only [this]
    have ht := fun offset (gs : List (GlyphInfo (φ × Nat))) ps =>
      shapesFrom_turn (⟨text, point, ax, ay, fonts, size, .ltr, ⟨[color], [], [], []⟩, none⟩ : TextOp φ) rfl point a offset 0 gs ps
    constructor
    · rintro ⟨h, glyphs, ps, top, bottom, h1, h2, h3, h4, h5⟩
      rw [ht] at h5
      exact ⟨h, _, ⟨glyphs, ps, top, bottom, h1, h2, h3, h4, rfl⟩, h5⟩
    · rintro ⟨h, _, ⟨glyphs, ps, top, bottom, h1, h2, h3, h4, rfl⟩, h5⟩
      refine ⟨h, glyphs, ps, top, bottom, h1, h2, h3, h4, ?_⟩
      rw [ht]
      exact h5

end

end Clip
