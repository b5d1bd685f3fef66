import Verif.Spec.PlotUnits
import Verif.Lemmas.Sources
import Verif.Props.DataUnits
set_option linter.unusedSimpArgs false
/-! # Plots in other units: scales, series and options -/
namespace Clip.Units
open Settings Drawing Pictures PlotSpec AxisSpec DataSpec Elements Options LegendSpec Whole
noncomputable section
variable {φ : Type} {P : PlotEnv φ} {E : ReadEnv} {a b : ℝ}

/-- The scale in other units. -/
def conv (a b : ℝ) (s : Scale) : Scale := { s with min := s.min.map (a * · + b), max := s.max.map (a * · + b), padding := a * s.padding, hints := ⟨s.hints.minValue.map (a * · + b), s.hints.maxValue.map (a * · + b)⟩ }

theorem conv_fresh : conv a b Defaults.freshScale = Defaults.freshScale := by
  unfold conv Defaults.freshScale; simp

theorem mono (ha : 0 < a) : Monotone fun x : ℝ => a * x + b := fun x y h => by
  have := mul_le_mul_of_nonneg_left h ha.le
  simpa using this

theorem lower_conv {s : Scale} (h : Limited s) : lower (conv a b s) = a * lower s + b := by
  unfold lower conv
  rcases h.1 with h | h
  · obtain ⟨v, hv⟩ := Option.ne_none_iff_exists'.1 h
    simp [hv]
  · obtain ⟨v, hv⟩ := Option.ne_none_iff_exists'.1 h
    cases s.min <;> simp [hv]; ring

theorem upper_conv {s : Scale} (h : Limited s) : upper (conv a b s) = a * upper s + b := by
  unfold upper conv
  rcases h.2 with h | h
  · obtain ⟨v, hv⟩ := Option.ne_none_iff_exists'.1 h
    simp [hv]
  · obtain ⟨v, hv⟩ := Option.ne_none_iff_exists'.1 h
    cases s.max <;> simp [hv]; ring

theorem positions_conv (ha : 0 < a) {s : Scale} (hk : s.kind = .linear) (hl : Limited s) {d d' : DataBuffer (Option ℝ)}
    (hc : Converted P (a * · + b) d d') {us : List ℝ} (h : Positions P s d us) : Positions P (conv a b s) d' us :=
  (C104_positions P a b ha.ne' s (conv a b s) hk hk rfl (lower_conv hl) (upper_conv hl) d d' hc us).1 h

theorem lengths_conv (ha : 0 < a) {s : Scale} (hk : s.kind = .linear) (hl : Limited s) {d d' : DataBuffer (Option ℝ)}
    (hc : Converted P (a * ·) d d') {us : List ℝ} (h : Lengths P s d us) : Lengths P (conv a b s) d' us := by
  obtain ⟨vs, h1, h2⟩ := h
  obtain ⟨vs₁, vs', h3, h4, h5⟩ := hc
  cases hasValues_det h1 h3
  refine ⟨vs', h4, ?_⟩
  clear h1 h3 h4
  induction h5 generalizing us with
  | nil => cases h2; exact .nil
  | cons h _ ih =>
    cases h2 with
    | cons h6 h7 =>
      refine .cons ?_ (ih h7)
      obtain ⟨x, hx, hx'⟩ := h
      obtain ⟨y, hy, h8⟩ := h6
      have e : y = x := by
        rcases hx with rfl | ⟨t, rfl, _, h⟩ <;> rcases hy with hy | ⟨t', hy, h'⟩ <;> cases hy
        · rfl
        · rw [h] at h'; exact (Option.some.inj h').symm
      subst e
      rcases h8 with ⟨h8, _⟩ | ⟨_, h8, h9⟩
      · rw [hk] at h8; cases h8
      · refine ⟨a * y, ?_, .inr ⟨by rw [show (conv a b s).kind = s.kind from rfl, hk]; simp, ?_, ?_⟩⟩
        · rcases hx' with h | ⟨t, h, _, h'⟩
          · exact .inl h
          · exact .inr ⟨t, h, h'⟩
        · rw [lower_conv hl, upper_conv hl]
          intro h
          exact h8 (mul_left_cancel₀ ha.ne' (add_right_cancel h))
        · rw [lower_conv hl, upper_conv hl, h9]
          have : a * upper s + b - (a * lower s + b) = a * (upper s - lower s) := by ring
          rw [this, mul_div_mul_left _ _ ha.ne']

theorem base_conv (ha : 0 < a) {s : Scale} (hk : s.kind = .linear) (hl : Limited s) (hb : b = 0) {z : ℝ} (h : BaseLine P s z) :
    BaseLine P (conv a b s) z := by
  obtain ⟨u, h1, h2⟩ := h
  refine ⟨u, ?_, h2⟩
  rcases h1 with ⟨h1, _⟩ | ⟨h1, h3⟩
  · rw [hk] at h1; cases h1
  · refine .inr ⟨h1, ?_⟩
    have hv : HasValues (⟨[(true, 0)], [some (0 : ℝ)], []⟩ : DataBuffer (Option ℝ)) [.number (some 0)] :=
      .cons (.inl ⟨rfl, _, rfl, rfl⟩) .nil
    obtain ⟨vs, h4, h5⟩ := positions_conv (P := P) (b := b) ha hk hl (d := ⟨[(true, 0)], [some 0], []⟩) (d' := ⟨[(true, 0)], [some 0], []⟩)
      ⟨_, _, hv, hv, .cons ⟨0, .inl rfl, .inl (by rw [hb]; simp)⟩ .nil⟩ (us := [u]) ⟨_, hv, .cons h3 .nil⟩
    cases hasValues_det hv h4
    cases h5 with
    | cons h _ => exact h

theorem lows_conv (ha : 0 < a) {s : Scale} (hk : s.kind = .linear) (hl : Limited s) (hb : b = 0) {d d' : DataBuffer (Option ℝ)}
    (hc : Converted P (a * · + b) d d') {n : ℕ} {lows : List ℝ} (h : Lows P s d n lows) : Lows P (conv a b s) d' n lows := by
  obtain ⟨os, z, h1, h2, h3⟩ := h
  exact ⟨os, z, positions_conv ha hk hl hc h1, base_conv ha hk hl hb h2, h3⟩

/-! ## Automatic limits -/

theorem image_eq (f : ℝ → ℝ) (old : Option ℝ) (xs : List ℝ) : ({x | old.map f = some x} ∪ {x | x ∈ xs.map f} : Set ℝ) =
    f '' ({x | old = some x} ∪ {x | x ∈ xs}) := by
  rw [Set.image_union]
  congr 1
  · ext y; simp only [Set.mem_setOf_eq, Option.map_eq_some_iff, Set.mem_image]
  · ext y; simp only [Set.mem_setOf_eq, List.mem_map, Set.mem_image]

theorem best_least (ha : 0 < a) {old new : Option ℝ} {xs : List ℝ} (h : Best IsLeast old xs new) :
    Best IsLeast (old.map (a * · + b)) (xs.map (a * · + b)) (new.map (a * · + b)) := by
  rcases h with ⟨rfl, rfl, rfl⟩ | ⟨m, rfl, h⟩
  · exact .inl ⟨rfl, rfl, rfl⟩
  · refine .inr ⟨a * m + b, rfl, ?_⟩
    have := (mono (b := b) ha).map_isLeast h
    rwa [← image_eq] at this

theorem best_greatest (ha : 0 < a) {old new : Option ℝ} {xs : List ℝ} (h : Best IsGreatest old xs new) :
    Best IsGreatest (old.map (a * · + b)) (xs.map (a * · + b)) (new.map (a * · + b)) := by
  rcases h with ⟨rfl, rfl, rfl⟩ | ⟨m, rfl, h⟩
  · exact .inl ⟨rfl, rfl, rfl⟩
  · refine .inr ⟨a * m + b, rfl, ?_⟩
    have := (mono (b := b) ha).map_isGreatest h
    rwa [← image_eq] at this

theorem counts_conv {s : Scale} (hk : s.kind = .linear) {d d' : DataBuffer (Option ℝ)} (hc : Converted P (a * · + b) d d') {xs : List ℝ}
    (h : Counts P s d xs) : Counts P (conv a b s) d' (xs.map (a * · + b)) := by
  obtain ⟨ys, h1, h2, _⟩ := counts_one P (sc := s) (by rw [hk]; simp) hc
  cases counts_det P h h1
  obtain ⟨vs, h3, h4⟩ := h2
  exact ⟨vs, h3, h4.imp fun {v x} h => h⟩

theorem fitted_conv (ha : 0 < a) {s s' : Scale} (hk : s.kind = .linear) {ds ds' : List (DataBuffer (Option ℝ))}
    (hc : List.Forall₂ (Converted P (a * · + b)) ds ds') (h : Fitted P ds s s') :
    Fitted P ds' (conv a b s) (conv a b s') ∧ s'.kind = .linear := by
  obtain ⟨xss, hh, h1, ⟨h2, h3⟩, rfl⟩ := h
  refine ⟨⟨xss.map (·.map (a * · + b)), _, ?_, ⟨?_, ?_⟩, rfl⟩, hk⟩
  · clear h2 h3
    induction hc generalizing xss with
    | nil => cases h1; exact .nil
    | cons h _ ih =>
      cases h1 with
      | cons h4 h5 => exact .cons (counts_conv hk h h4) (ih _ h5)
  · rw [← List.map_flatten]
    exact best_least ha h2
  · rw [← List.map_flatten]
    exact best_greatest ha h3

/-! ## Series -/

theorem converted_nil {f : ℝ → ℝ} : Converted P f Defaults.noData Defaults.noData := ⟨[], [], .nil, .nil, .nil⟩

theorem values_add {d : DataBuffer (Option ℝ)} {vs : List Datum} (h : HasValues d vs) (ts : List Str) :
    HasValues (databufAddTexts d ts) (vs ++ ts.map .text) := by
  induction ts generalizing d vs with
  | nil => simpa [databufAddTexts] using h
  | cons t ts ih =>
    have : HasValues (databufAddText d t) (vs ++ [.text t]) := by
      refine List.rel_append ?_ (.cons (.inr ⟨rfl, t, ?_, rfl⟩) .nil)
      · refine List.Forall₂.imp ?_ h
        rintro i v (⟨h1, x, h2, h3⟩ | ⟨h1, x, h2, h3⟩)
        · exact .inl ⟨h1, x, h2, h3⟩
        · refine .inr ⟨h1, x, ?_, h3⟩
          show (d.text ++ [t])[i.2]? = some x
          rw [List.getElem?_append_left (List.getElem?_eq_some_iff.1 h2).1]
          exact h2
      · show (d.text ++ [t])[d.text.length]? = some t
        simp
    have h2 := ih this
    simpa [databufAddTexts] using h2

theorem converted_add {f : ℝ → ℝ} {d d' : DataBuffer (Option ℝ)} (h : Converted P f d d') {ts ts' : List Str} (ht : Numbers P f ts ts') :
    Converted P f (databufAddTexts d ts) (databufAddTexts d' ts') := by
  obtain ⟨vs, vs', h1, h2, h3⟩ := h
  refine ⟨_, _, values_add h1 ts, values_add h2 ts', List.rel_append h3 ?_⟩
  rw [List.forall₂_map_left_iff, List.forall₂_map_right_iff]
  exact ht.imp fun {t t'} ⟨x, h4, h5, h6, h7⟩ => ⟨x, .inr ⟨t, rfl, h4, h5⟩, .inr ⟨t', rfl, h6, h7⟩⟩

theorem converted_length {f : ℝ → ℝ} {d d' : DataBuffer (Option ℝ)} (h : Converted P f d d') : d'.index.length = d.index.length := by
  obtain ⟨vs, vs', h1, h2, h3⟩ := h
  rw [List.Forall₂.length_eq h2, List.Forall₂.length_eq h1, List.Forall₂.length_eq h3]

theorem converted_empty {f : ℝ → ℝ} {d d' : DataBuffer (Option ℝ)} (h : Converted P f d d') : d'.index = [] ↔ d.index = [] := by
  rw [← List.length_eq_zero_iff, converted_length h, List.length_eq_zero_iff]

/-! ## Options -/

theorem option_name {c c' : Expr} (h : Option' P E a b c c') : nameOf c' = nameOf c := by
  cases h with
  | same => rfl
  | source h h' => rw [h, h']
  | given _ h h' => rw [h, h']
  | length _ h h' => rw [h, h']
  | limits h h' => rw [h, h']
  | limit _ h h' => rw [h, h']
  | padding h h' => rw [h, h']

theorem same_name {c : Expr} {m n : String} (h : nameOf c = some (String.toList m)) (h' : nameOf c = some (String.toList n)) :
    m = n := String.toList_inj.1 (Option.some.inj (h.symm.trans h'))

/-- Options for other things are the same. -/
theorem option_eq {c c' : Expr} (h : Option' P E a b c c') {n : String} (hn : nameOf c = some (String.toList n)) (hm : n ∉ horizontal) :
    c' = c := by
  have inside : ∀ m ∈ ["data-x-low", "data-x-high", "data-dx", "data-size-x", "limit-x-min", "limit-x-max"], m ∈ horizontal := by decide
  have key : ∀ m ∈ horizontal, nameOf c = some (String.toList m) → c' = c := fun m h1 h2 => absurd (same_name h2 hn ▸ h1) hm
  cases h with
  | same => rfl
  | source h => exact key "data-x" (by decide) h
  | @given m _ _ _ _ hm h => exact key m (inside m (by simp only [List.mem_append, List.mem_cons, List.not_mem_nil, or_false] at hm ⊢; tauto)) h
  | @length m _ _ _ _ hm h => exact key m (inside m (by simp only [List.mem_append, List.mem_cons, List.not_mem_nil, or_false] at hm ⊢; tauto)) h
  | limits h => exact key "limit-x" (by decide) h
  | @limit m _ _ _ hm h => exact key m (inside m (by simp only [List.mem_append, List.mem_cons, List.not_mem_nil, or_false] at hm ⊢; tauto)) h
  | padding h => exact key "scale-x-padding" (by decide) h

theorem acts_sim {α : Type} {ρ : α → α → Prop} {t : List (String × Effect α)} {cs cs' : List Expr}
    (hc : List.Forall₂ (Option' P E a b) cs cs')
    (ht : ∀ p ∈ t, ∀ c c', Option' P E a b c c' → nameOf c = some (String.toList p.1) → ∀ x x' y, ρ x x' → p.2 (argsOf c) x y →
      ∃ y', p.2 (argsOf c') x' y' ∧ ρ y y') {x x' y : α} (hx : ρ x x') (h : Acts t cs x y) : ∃ y', Acts t cs' x' y' ∧ ρ y y' := by
  induction h generalizing cs' x' with
  | nil => cases hc; exact ⟨x', .nil _, hx⟩
  | act h1 h2 h3 _ ih =>
    cases hc with
    | cons hcc hcs =>
      obtain ⟨b', h4, h5⟩ := ht _ h2 _ _ hcc h1 _ _ _ hx h3
      obtain ⟨d', h6, h7⟩ := ih hcs h5
      exact ⟨d', .act ((option_name hcc).trans h1) h2 h4 h6, h7⟩
  | skip h1 _ ih =>
    cases hc with
    | cons hcc hcs =>
      obtain ⟨d', h6, h7⟩ := ih hcs hx
      exact ⟨d', .skip (fun p hp => by rw [option_name hcc]; exact h1 p hp) h6, h7⟩

theorem acts_same {α : Type} {t : List (String × Effect α)} {cs cs' : List Expr} {x y : α} (h : Acts t cs x y)
    (hc : List.Forall₂ (Option' P E a b) cs cs') (ht : ∀ p ∈ t, p.1 ∉ horizontal) : Acts t cs' x y := by
  obtain ⟨b', h1, rfl⟩ := acts_sim (ρ := Eq) hc (fun p hp c c' hcc hn x x' y hx hf =>
    ⟨y, by rw [option_eq hcc hn (ht p hp), ← hx]; exact hf, rfl⟩) rfl h
  exact h1

theorem last_same {α : Type} {R : List Expr → α → Prop} {names : List String} {cs cs' : List Expr} {x y : α}
    (h : LastOf R names cs x y) (hc : List.Forall₂ (Option' P E a b) cs cs') (ht : ∀ n ∈ names, n ∉ horizontal) :
    LastOf R names cs' x y :=
  acts_same h hc (by
    intro p hp
    obtain ⟨n, hn, rfl⟩ := List.mem_map.1 hp
    exact ht n hn)

theorem known_same {names : List String} {cs cs' : List Expr} (h : Known names cs)
    (hc : List.Forall₂ (Option' P E a b) cs cs') : Known names cs' := by
  induction hc with
  | nil => exact h
  | cons hcc _ ih =>
    intro c hm
    rcases List.mem_cons.1 hm with rfl | hm
    · rw [option_name hcc]; exact h _ (.head _)
    · exact ih (fun x hx => h x (.tail _ hx)) c hm

theorem outside {α : Type} {n : String} {f : α} (h : n ∉ horizontal) : (n, f).1 ∉ horizontal := h

macro "others" : tactic => `(tactic| repeat (first
  | exact List.forall_mem_nil _
  | refine List.forall_mem_cons.2 ⟨by decide +kernel, ?_⟩
  | refine List.forall_mem_cons.2 ⟨outside (by decide +kernel), ?_⟩))

/-! ## The options for the horizontal scale -/

theorem scale_words {args : List Expr} (ha : ∀ e ∈ args, IsWord e "linear" ∨ IsWord e "invert" ∨ IsWord e "inverted")
    {s s' : Scale} (hk : s.kind = .linear) (h : ScaleWords P args s s') :
    ScaleWords P args (conv a b s) (conv a b s') ∧ s'.kind = .linear := by
  have apart : ∀ {e : Expr} {v w : String}, IsWord e v → IsWord e w → v = w := by
    intro e v w h h'
    rcases h with rfl | rfl <;> rcases h' with h' | h' <;>
      first | exact String.toList_inj.1 (Expr.literal.inj h') | exact String.toList_inj.1 (Expr.value.inj h') | cases h'
  have nolist : ∀ {l : List Expr} {v : String}, ¬ IsWord (.list l) v := by
    rintro l v (h | h) <;> cases h
  induction h with
  | nil => exact ⟨.nil _, hk⟩
  | @cons e es s s₁ s' h1 _ ih =>
    have he := ha e (.head _)
    have ih := fun hk => ih (fun x hx => ha x (.tail _ hx)) hk
    cases h1 with
    | linear h =>
      obtain ⟨h5, h6⟩ := ih rfl
      exact ⟨.cons (.linear h) h5, h6⟩
    | log h =>
      exfalso
      rcases h with h | h <;> rcases he with h' | h' | h' <;> exact absurd (apart h h') (by decide)
    | logBase => rcases he with h' | h' | h' <;> exact absurd h' nolist
    | invert h =>
      obtain ⟨h5, h6⟩ := ih hk
      exact ⟨.cons (.invert h) h5, h6⟩
    | categorical h =>
      exfalso
      rcases he with h' | h' | h' <;> exact absurd (apart h h') (by decide)
    | categories => rcases he with h' | h' | h' <;> exact absurd h' nolist

theorem number_unique {args : List Expr} {v w : ℝ} (h : IsNumber E args v) (h' : IsNumber E args w) : v = w := by
  obtain ⟨e, r, rfl, h⟩ := h
  obtain ⟨e', r', he, h'⟩ := h'
  cases he
  rw [h] at h'
  cases h'; rfl

theorem not_same {c : Expr} {n : String} (hn : nameOf c = some (String.toList n))
    (h : ∀ n ∈ horizontal ++ ["data", "data-format", "data-size"], nameOf c ≠ some (String.toList n)) (hm : n ∈ horizontal) : False :=
  h n (List.mem_append_left _ hm) hn

theorem apart {c : Expr} {m n : String} (h : nameOf c = some (String.toList m)) (h' : nameOf c = some (String.toList n)) (hne : m ≠ n) :
    False := hne (same_name h h')

theorem apart_mem {c : Expr} {m n : String} {l : List String} (hm : m ∈ l) (h : nameOf c = some (String.toList m))
    (h' : nameOf c = some (String.toList n)) (hne : n ∉ l) : False := hne (same_name h h' ▸ hm)

theorem inv_limits {c c' : Expr} (h : Option' P E a b c c') (hn : nameOf c = some "limit-x".toList) :
    ∃ x y x' y' lo hi, argsOf c = [x, y] ∧ argsOf c' = [x', y'] ∧ exprToFloat E.stod x = .ok lo ∧ exprToFloat E.stod y = .ok hi ∧
      exprToFloat E.stod x' = .ok (a * lo + b) ∧ exprToFloat E.stod y' = .ok (a * hi + b) := by
  cases h with
  | same h => exact (not_same hn h (by decide)).elim
  | source h => exact (apart h hn (by decide)).elim
  | given hm h => exact (apart_mem hm h hn (by decide)).elim
  | length hm h => exact (apart_mem hm h hn (by decide)).elim
  | limits _ _ h1 h2 h3 h4 h5 h6 => exact ⟨_, _, _, _, _, _, h1, h2, h3, h4, h5, h6⟩
  | limit hm h => exact (apart_mem hm h hn (by decide)).elim
  | padding h => exact (apart h hn (by decide)).elim

theorem inv_limit {c c' : Expr} {n : String} (h : Option' P E a b c c') (hm : n ∈ ["limit-x-min", "limit-x-max"])
    (hn : nameOf c = some n.toList) : ∃ v, IsNumber E (argsOf c) v ∧ IsNumber E (argsOf c') (a * v + b) := by
  have no : ∀ n ∈ ["limit-x-min", "limit-x-max"], n ∈ horizontal ∧ "data-x" ≠ n ∧ n ∉ ["data-x-low", "data-x-high"] ∧
    n ∉ ["data-dx", "data-size-x"] ∧ "limit-x" ≠ n ∧ "scale-x-padding" ≠ n := by decide
  obtain ⟨n1, n2, n3, n4, n5, n6⟩ := no n hm
  cases h with
  | same h => exact (not_same hn h n1).elim
  | source h => exact (apart h hn n2).elim
  | given hm h => exact (apart_mem hm h hn n3).elim
  | length hm h => exact (apart_mem hm h hn n4).elim
  | limits h => exact (apart h hn n5).elim
  | limit _ _ _ h1 h2 => exact ⟨_, h1, h2⟩
  | padding h => exact (apart h hn n6).elim

theorem inv_padding {c c' : Expr} (h : Option' P E a b c c') (hn : nameOf c = some "scale-x-padding".toList) :
    ∃ v, IsNumber E (argsOf c) v ∧ IsNumber E (argsOf c') (a * v) := by
  cases h with
  | same h => exact (not_same hn h (by decide)).elim
  | source h => exact (apart h hn (by decide)).elim
  | given hm h => exact (apart_mem hm h hn (by decide)).elim
  | length hm h => exact (apart_mem hm h hn (by decide)).elim
  | limits h => exact (apart h hn (by decide)).elim
  | limit hm h => exact (apart_mem hm h hn (by decide)).elim
  | padding _ _ h1 h2 => exact ⟨_, h1, h2⟩

theorem inv_words {c c' : Expr} (h : Option' P E a b c c') (hn : nameOf c = some "scale-x".toList) :
    c' = c ∧ ∀ e ∈ argsOf c, IsWord e "linear" ∨ IsWord e "invert" ∨ IsWord e "inverted" := by
  refine ⟨option_eq h hn (by decide), ?_⟩
  cases h with
  | same _ h => exact h hn
  | source h => exact (apart h hn (by decide)).elim
  | given hm h => exact (apart_mem hm h hn (by decide)).elim
  | length hm h => exact (apart_mem hm h hn (by decide)).elim
  | limits h => exact (apart h hn (by decide)).elim
  | limit hm h => exact (apart_mem hm h hn (by decide)).elim
  | padding h => exact (apart h hn (by decide)).elim

theorem inv_data {c c' : Expr} {n : String} (h : Option' P E a b c c') (hm : n ∈ ["data-x", "data-x-low", "data-x-high"])
    (hn : nameOf c = some n.toList) : ∃ vs vs', dataLoadSimple P.readFile (argsOf c) = (vs, .ok ()) ∧
      dataLoadSimple P.readFile (argsOf c') = (vs', .ok ()) ∧ Numbers P (a * · + b) vs vs' := by
  have no : ∀ n ∈ ["data-x", "data-x-low", "data-x-high"], n ∈ horizontal ∧
    n ∉ ["data-dx", "data-size-x"] ∧ "limit-x" ≠ n ∧ n ∉ ["limit-x-min", "limit-x-max"] ∧ "scale-x-padding" ≠ n := by decide
  obtain ⟨n1, n4, n5, n6, n7⟩ := no n hm
  cases h with
  | same h => exact (not_same hn h n1).elim
  | source _ _ h1 h2 h3 => exact ⟨_, _, Notation.source_loads h1, Notation.source_loads h2, h3⟩
  | given _ _ _ h1 h2 h3 => exact ⟨_, _, Notation.given_loads h1, Notation.given_loads h2, h3⟩
  | length hm h => exact (apart_mem hm h hn n4).elim
  | limits h => exact (apart h hn n5).elim
  | limit hm h => exact (apart_mem hm h hn n6).elim
  | padding h => exact (apart h hn n7).elim

theorem inv_length {c c' : Expr} {n : String} (h : Option' P E a b c c') (hm : n ∈ ["data-dx", "data-size-x"])
    (hn : nameOf c = some n.toList) : ∃ vs vs', dataLoadSimple P.readFile (argsOf c) = (vs, .ok ()) ∧
      dataLoadSimple P.readFile (argsOf c') = (vs', .ok ()) ∧ Numbers P (a * ·) vs vs' := by
  have no : ∀ n ∈ ["data-dx", "data-size-x"], n ∈ horizontal ∧ "data-x" ≠ n ∧
    n ∉ ["data-x-low", "data-x-high"] ∧ "limit-x" ≠ n ∧ n ∉ ["limit-x-min", "limit-x-max"] ∧ "scale-x-padding" ≠ n := by decide
  obtain ⟨n1, n3, n4, n5, n6, n7⟩ := no n hm
  cases h with
  | same h => exact (not_same hn h n1).elim
  | source h => exact (apart h hn n3).elim
  | given hm h => exact (apart_mem hm h hn n4).elim
  | length _ _ _ h1 h2 h3 => exact ⟨_, _, Notation.given_loads h1, Notation.given_loads h2, h3⟩
  | limits h => exact (apart h hn n5).elim
  | limit hm h => exact (apart_mem hm h hn n6).elim
  | padding h => exact (apart h hn n7).elim

theorem scale_entry {p : String × Effect Scale} (hp : p ∈ scaleX P E) {c c' : Expr} (hc : Option' P E a b c c')
    (hn : nameOf c = some (String.toList p.1)) {s s₁ : Scale} (hk : s.kind = .linear) (h : p.2 (argsOf c) s s₁) :
    p.2 (argsOf c') (conv a b s) (conv a b s₁) ∧ s₁.kind = .linear ∧ (Limited s → Limited s₁) := by
  simp only [scaleX, List.mem_cons, List.not_mem_nil, or_false] at hp
  rcases hp with rfl | rfl | rfl | rfl | rfl
  · obtain ⟨x, y, x', y', lo, hi, h1, h2, h3, h4, h5, h6⟩ := inv_limits hc hn
    obtain ⟨u, v, lo', hi', g1, g2, g3, rfl⟩ := h
    rw [h1] at g1
    cases g1
    rw [h3] at g2
    rw [h4] at g3
    cases g2
    cases g3
    exact ⟨⟨x', y', _, _, h2, h5, h6, rfl⟩, hk, fun _ => ⟨.inl (by simp), .inl (by simp)⟩⟩
  · obtain ⟨v, h1, h2⟩ := inv_limit (n := "limit-x-min") hc (by decide) hn
    obtain ⟨w, h3, rfl⟩ := h
    cases number_unique h1 h3
    exact ⟨⟨_, h2, rfl⟩, hk, fun h => ⟨.inl (by simp), h.2⟩⟩
  · obtain ⟨v, h1, h2⟩ := inv_limit (n := "limit-x-max") hc (by decide) hn
    obtain ⟨w, h3, rfl⟩ := h
    cases number_unique h1 h3
    exact ⟨⟨_, h2, rfl⟩, hk, fun h => ⟨h.1, .inl (by simp)⟩⟩
  · obtain ⟨rfl, hw⟩ := inv_words hc hn
    obtain ⟨h1, h2⟩ := scale_words (a := a) (b := b) hw hk h
    refine ⟨h1, h2, fun hl => ?_⟩
    have key : ∀ {args : List Expr} {s s₁ : Scale}, ScaleWords P args s s₁ → Limited s → Limited s₁ := by
      intro args s s₁ h
      induction h with
      | nil => exact id
      | cons h _ ih =>
        intro hl
        refine ih ?_
        cases h <;> exact hl
    exact key h hl
  · obtain ⟨v, h1, h2⟩ := inv_padding hc hn
    obtain ⟨w, h3, rfl⟩ := h
    cases number_unique h1 h3
    exact ⟨⟨_, h2, rfl⟩, hk, fun h => h⟩

/-- The scales of a plot in other units. -/
def convS (a b : ℝ) (s : Scales) : Scales := ⟨conv a b s.x, s.y⟩

theorem scales_conv {cs cs' : List Expr} (hc : List.Forall₂ (Option' P E a b) cs cs') {s s₁ : Scales} (h : ScalesMeans P E cs s s₁)
    (hk : s.x.kind = .linear) : ScalesMeans P E cs' (convS a b s) (convS a b s₁) ∧ s₁.x.kind = .linear ∧ (Limited s.x → Limited s₁.x) := by
  obtain ⟨y, h1, rfl, h2, h3⟩ := acts_sim (ρ := fun x x' => x' = conv a b x ∧ x.kind = .linear ∧ (Limited s.x → Limited x)) hc (by
    rintro p hp c c' hcc hn x _ y ⟨rfl, h1, h2⟩ h
    obtain ⟨h3, h4, h5⟩ := scale_entry hp hcc hn h1 h
    exact ⟨_, h3, rfl, h4, fun hl => h5 (h2 hl)⟩) ⟨rfl, hk, id⟩ h.x
  exact ⟨⟨h1, acts_same h.y hc (by unfold scaleY; others)⟩, h2, h3⟩

theorem data_conv {t : List (String × Effect (DataBuffer (Option ℝ)))} (ht : ∀ p ∈ t, p.1 ∈ ["data-x", "data-x-low", "data-x-high"] ∧ p.2 = AddData P)
    {cs cs' : List Expr} (hc : List.Forall₂ (Option' P E a b) cs cs') {d d₁ : DataBuffer (Option ℝ)} (h : Acts t cs d d₁)
    {d' : DataBuffer (Option ℝ)} (hd : Converted P (a * · + b) d d') : ∃ d₁', Acts t cs' d' d₁' ∧ Converted P (a * · + b) d₁ d₁' := by
  refine acts_sim (ρ := Converted P (a * · + b)) hc ?_ hd h
  intro p hp c c' hcc hn x x' y hx hy
  obtain ⟨h1, h2⟩ := ht p hp
  rw [h2] at hy ⊢
  obtain ⟨vs, vs', h3, h4, h5⟩ := inv_data hcc h1 hn
  obtain ⟨us, h6, rfl⟩ := hy
  rw [h3] at h6
  cases h6
  exact ⟨_, ⟨vs', h4, rfl⟩, converted_add hx h5⟩

theorem length_conv {t : List (String × Effect (DataBuffer (Option ℝ)))} (ht : ∀ p ∈ t, p.1 ∈ ["data-dx", "data-size-x"] ∧ p.2 = AddData P)
    {cs cs' : List Expr} (hc : List.Forall₂ (Option' P E a b) cs cs') {d d₁ : DataBuffer (Option ℝ)} (h : Acts t cs d d₁)
    {d' : DataBuffer (Option ℝ)} (hd : Converted P (a * ·) d d') : ∃ d₁', Acts t cs' d' d₁' ∧ Converted P (a * ·) d₁ d₁' := by
  refine acts_sim (ρ := Converted P (a * ·)) hc ?_ hd h
  intro p hp c c' hcc hn x x' y hx hy
  obtain ⟨h1, h2⟩ := ht p hp
  rw [h2] at hy ⊢
  obtain ⟨vs, vs', h3, h4, h5⟩ := inv_length hcc h1 hn
  obtain ⟨us, h6, rfl⟩ := hy
  rw [h3] at h6
  cases h6
  exact ⟨_, ⟨vs', h4, rfl⟩, converted_add hx h5⟩

/-! ## Data by file and columns -/

theorem unused {α : Type} {t : List (String × Effect α)} {cs : List Expr} {x y : α} (h : Acts t cs x y)
    (hc : ∀ c ∈ cs, ∀ p ∈ t, nameOf c ≠ some (String.toList p.1)) : y = x := by
  induction h with
  | nil => rfl
  | act h1 h2 => exact absurd h1 (hc _ (.head _) _ h2)
  | skip _ _ ih => exact ih fun c h => hc c (.tail _ h)

theorem left_mem {R : Expr → Expr → Prop} {as bs : List Expr} (h : List.Forall₂ R as bs) {c : Expr} (hc : c ∈ as) : ∃ c', R c c' := by
  induction h with
  | nil => cases hc
  | cons h _ ih =>
    rcases List.mem_cons.1 hc with rfl | hc
    · exact ⟨_, h⟩
    · exact ih hc

theorem never {c c' : Expr} (h : Option' P E a b c c') {n : String} (hn : n ∈ ["data", "data-format", "data-size"]) :
    nameOf c ≠ some (String.toList n) := by
  intro h'
  have no : ∀ n ∈ ["data", "data-format", "data-size"], "data-x" ≠ n ∧ n ∉ ["data-x-low", "data-x-high"] ∧ n ∉ ["data-dx", "data-size-x"] ∧
    "limit-x" ≠ n ∧ n ∉ ["limit-x-min", "limit-x-max"] ∧ "scale-x-padding" ≠ n := by decide
  obtain ⟨n3, n1, n4, n5, n6, n7⟩ := no n hn
  cases h with
  | same h => exact h n (List.mem_append_right _ hn) h'
  | source h => exact (apart h h' n3).elim
  | given hm h => exact (apart_mem hm h h' n1).elim
  | length hm h => exact (apart_mem hm h h' n4).elim
  | limits h => exact (apart h h' n5).elim
  | limit hm h => exact (apart_mem hm h h' n6).elim
  | padding h => exact (apart h h' n7).elim

/-- Columns with the converted values. -/
def RefConv (P : PlotEnv φ) (a b : ℝ) (r r' : Option Expr) : Prop :=
  ∃ vs vs', loadInlineRef P.readFile r = (vs, .ok ()) ∧ loadInlineRef P.readFile r' = (vs', .ok ()) ∧ Numbers P (a * · + b) vs vs'

theorem ref_entry {c c' : Expr} (h : Option' P E a b c c') (hn : nameOf c = some "data-x".toList) :
    RefConv P a b (argsOf c).head? (argsOf c').head? := by
  have key : ∀ {args : List Expr} {vs : List Str}, Source P args vs → loadInlineRef P.readFile args.head? = (vs, .ok ()) := by
    intro args vs h
    obtain ⟨e, h1, h2⟩ := Notation.source_head h
    obtain ⟨l, rfl⟩ := Notation.source_list h2
    rw [h1]
    exact Notation.source_loads h2
  cases h with
  | same h => exact (not_same hn h (by decide)).elim
  | source _ _ h1 h2 h3 => exact ⟨_, _, key h1, key h2, h3⟩
  | given hm h => exact (apart_mem hm h hn (by decide)).elim
  | length hm h => exact (apart_mem hm h hn (by decide)).elim
  | limits h => exact (apart h hn (by decide)).elim
  | limit hm h => exact (apart_mem hm h hn (by decide)).elim
  | padding h => exact (apart h hn (by decide)).elim

theorem refs_conv {cs cs' : List Expr} (hc : List.Forall₂ (Option' P E a b) cs cs') {r : DataRefs} (h : DataMeans cs Defaults.noRefs r) :
    ∃ x', DataMeans cs' Defaults.noRefs { r with refX := x' } ∧ RefConv P a b r.refX x' ∧ r.path = [] := by
  obtain ⟨x', h1, h2⟩ := acts_sim (ρ := RefConv P a b) hc (by
    intro p hp c c' hcc hn x x' y _ hy
    obtain ⟨m, hm, rfl⟩ := List.mem_map.1 hp
    rw [List.mem_singleton] at hm
    subst hm
    have hy : y = (argsOf c).head? := hy
    exact ⟨_, rfl, hy ▸ ref_entry hcc hn⟩) (show RefConv P a b none none from ⟨[], [], rfl, rfl, .nil⟩) h.x
  refine ⟨x', ⟨last_same h.path hc (by others), last_same h.format hc (by others), h1, last_same h.y hc (by others)⟩, h2, ?_⟩
  refine unused h.path ?_
  intro c hcm p hp
  obtain ⟨m, hm, rfl⟩ := List.mem_map.1 hp
  rw [List.mem_singleton] at hm
  subst hm
  obtain ⟨c', h3⟩ := left_mem hc hcm
  exact never h3 (by decide)

theorem lines_load {r : DataRefs} {x' : Option Expr} (hr : RefConv P a b r.refX x') (hp : r.path = [])
    {d d' e x y : DataBuffer (Option ℝ)} (hd : Converted P (a * · + b) d d') {g g' : List ℕ} {u : Unit}
    (h : dataLoadPolylines2 P.readFile P.geoLines r.path r.format r.refX r.refY d e g = ((x, y, g'), .ok u)) :
    ∃ z, dataLoadPolylines2 P.readFile P.geoLines r.path r.format x' r.refY d' e g = ((z, y, g'), .ok u) ∧
      Converted P (a * · + b) x z := by
  obtain ⟨vs, vs', h1, h2, h3⟩ := hr
  unfold dataLoadPolylines2 at h ⊢
  rw [hp] at h ⊢
  rw [h1] at h
  rw [h2]
  simp only [List.isEmpty_nil, if_true] at h ⊢
  split at h
  · rename_i hy
    cases h
    exact ⟨_, rfl, converted_add hd h3⟩
  · rename_i ws rc hne hy
    obtain ⟨h, rfl⟩ := Prod.mk.inj h
    exact (hne _ rfl).elim

theorem points_load {r : DataRefs} {x' : Option Expr} (hr : RefConv P a b r.refX x') (hp : r.path = [])
    {d d' e x y : DataBuffer (Option ℝ)} (hd : Converted P (a * · + b) d d') {u : Unit}
    (h : dataLoadPoints2 P.readFile P.geoPoints r.path r.format r.refX r.refY d e = ((x, y), .ok u)) :
    ∃ z, dataLoadPoints2 P.readFile P.geoPoints r.path r.format x' r.refY d' e = ((z, y), .ok u) ∧
      Converted P (a * · + b) x z := by
  obtain ⟨vs, vs', h1, h2, h3⟩ := hr
  unfold dataLoadPoints2 at h ⊢
  rw [hp] at h ⊢
  rw [h1] at h
  rw [h2]
  simp only [List.isEmpty_nil, if_true] at h ⊢
  split at h
  · rename_i hy
    cases h
    exact ⟨_, rfl, converted_add hd h3⟩
  · rename_i ws rc hne hy
    obtain ⟨h, rfl⟩ := Prod.mk.inj h
    exact (hne _ rfl).elim

/-! ## What is accepted -/

/-- The option takes the other arguments, too. -/
def Takes' (P : PlotEnv φ) (E : ReadEnv) (a b : ℝ) (p : String × (List Expr → Prop)) : Prop :=
  ∀ c c', Option' P E a b c c' → nameOf c = some (String.toList p.1) → p.2 (argsOf c) → p.2 (argsOf c')

theorem takes_other {n : String} {A : List Expr → Prop} (h : n ∉ horizontal) : Takes' P E a b (n, A) :=
  fun _ _ hc hn hA => by rw [option_eq hc hn h]; exact hA

theorem takes_anything {n : String} : Takes' P E a b (n, anything) := fun _ _ _ _ _ => trivial

theorem takes_data {n : String} (h : n ∈ ["data-x", "data-x-low", "data-x-high"]) : Takes' P E a b (n, Does (AddData P)) :=
  fun _ _ hc hn _ _ => by
    obtain ⟨vs, vs', _, h1, _⟩ := inv_data hc h hn
    exact ⟨_, vs', h1, rfl⟩

theorem takes_length {n : String} (h : n ∈ ["data-dx", "data-size-x"]) : Takes' P E a b (n, Does (AddData P)) :=
  fun _ _ hc hn _ _ => by
    obtain ⟨vs, vs', _, h1, _⟩ := inv_length hc h hn
    exact ⟨_, vs', h1, rfl⟩

theorem takes_limit {n : String} (h : n ∈ ["limit-x-min", "limit-x-max"]) : Takes' P E a b (n, Has (IsNumber E)) :=
  fun _ _ hc hn _ => by
    obtain ⟨v, _, h1⟩ := inv_limit hc h hn
    exact ⟨_, h1⟩

theorem takes_padding : Takes' P E a b ("scale-x-padding", Has (IsNumber E)) :=
  fun _ _ hc hn _ => by
    obtain ⟨v, _, h1⟩ := inv_padding hc hn
    exact ⟨_, h1⟩

theorem takes_both : Takes' P E a b ("limit-x", Does (scaleLimits E)) :=
  fun _ _ hc hn _ s => by
    obtain ⟨x, y, x', y', lo, hi, h1, h2, h3, h4, h5, h6⟩ := inv_limits hc hn
    exact ⟨_, x', y', _, _, h2, h5, h6, rfl⟩

macro "taken" : tactic => `(tactic| repeat (first
  | exact List.forall_mem_nil _
  | refine List.forall_mem_cons.2 ⟨takes_other (by decide +kernel), ?_⟩
  | refine List.forall_mem_cons.2 ⟨takes_anything, ?_⟩
  | refine List.forall_mem_cons.2 ⟨takes_both, ?_⟩
  | refine List.forall_mem_cons.2 ⟨takes_limit (by decide +kernel), ?_⟩
  | refine List.forall_mem_cons.2 ⟨takes_padding, ?_⟩
  | refine List.forall_mem_cons.2 ⟨takes_data (by decide +kernel), ?_⟩
  | refine List.forall_mem_cons.2 ⟨takes_length (by decide +kernel), ?_⟩))

theorem accepted_conv {t : Takes} {cs cs' : List Expr} (h : Acceptable t cs)
    (hc : List.Forall₂ (Option' P E a b) cs cs') (ht : ∀ p ∈ t, Takes' P E a b p) : Acceptable t cs' := by
  induction hc with
  | nil => exact h
  | cons hcc _ ih =>
    intro c hm
    rcases List.mem_cons.1 hm with rfl | hm
    · obtain ⟨n, A, h1, h2, h3⟩ := h _ (.head _)
      exact ⟨n, A, h1, (option_name hcc).trans h2, ht _ h1 _ _ hcc h2 h3⟩
    · exact ih (fun x hx => h x (.tail _ hx)) c hm

theorem takes_refs : ∀ p ∈ takesData, Takes' P E a b p := by unfold takesData; taken

theorem takes_scales : ∀ p ∈ takesScales P E, Takes' P E a b p := by
  unfold takesScales takesLimits; refine List.forall_mem_append.2 ⟨?_, ?_⟩ <;> taken

theorem takes_colors : ∀ p ∈ takesColors P E, Takes' P E a b p := by unfold takesColors; taken

theorem takes_sizes : ∀ p ∈ takesSizes P E, Takes' P E a b p := by unfold takesSizes; taken

end
end Clip.Units
