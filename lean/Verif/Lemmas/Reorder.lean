import Verif.Spec.Reorder
import Verif.Props.OptionsMean
import Verif.Props.AxesMean
import Verif.Props.LegendOptions
import Verif.Props.ScaleWords
set_option linter.unusedSimpArgs false
/-! Options in another order. -/
namespace Clip.Reorder
open Commands Settings Pictures Drawing Options
variable {α β σ φ : Type}

/-- Arguments and value before determine the value after. -/
def Fun (f : Effect α) : Prop := ∀ args a b b', f args a b → f args a b' → b = b'

/-- The effects of a table: one for each name, and functional. -/
def Funs (t : List (String × Effect α)) : Prop :=
  ∀ n f g, (n, f) ∈ t → (n, g) ∈ t → ∀ args a b b', f args a b → g args a b' → b = b'

theorem funs_nil : Funs ([] : List (String × Effect α)) := fun _ _ _ h => by simp at h

theorem funs_cons {n : String} {f : Effect α} {t : List (String × Effect α)} (hf : Fun f) (hn : n ∉ t.map (·.1)) (ht : Funs t) :
    Funs ((n, f) :: t) := by
  intro m g k h1 h2
  rcases List.mem_cons.1 h1 with h1 | h1 <;> rcases List.mem_cons.1 h2 with h2 | h2
  · cases h1; cases h2; exact hf
  · cases h1; exact absurd (List.mem_map.2 ⟨_, h2, rfl⟩) hn
  · cases h2; exact absurd (List.mem_map.2 ⟨_, h1, rfl⟩) hn
  · exact ht m g k h1 h2

theorem funs_last {R : List Expr → α → Prop} {names : List String} (h : Fun (sets R)) :
    Funs (names.map fun n => (n, sets R)) := by
  intro n f g h1 h2
  obtain ⟨_, _, h1⟩ := List.mem_map.1 h1
  obtain ⟨_, _, h2⟩ := List.mem_map.1 h2
  cases h1; cases h2; exact h

theorem named_iff {names : List String} {c : Expr} : named names c = true ↔ ∃ n ∈ names, nameOf c = some (String.toList n) := by
  simp [named]

theorem acts_only {t : List (String × Effect α)} {g : List String} (hg : ∀ p ∈ t, p.1 ∈ g) {cs : List Expr} {a b : α}
    (h : Acts t cs a b) : Acts t (cs.filter (named g)) a b := by
  induction h with
  | nil a => exact .nil a
  | act hn hm hf _ ih =>
    rw [List.filter_cons, if_pos (named_iff.2 ⟨_, hg _ hm, hn⟩)]
    exact .act hn hm hf ih
  | skip hn _ ih =>
    rw [List.filter_cons]
    split
    · exact .skip hn ih
    · exact ih

theorem acts_unique {t : List (String × Effect α)} (ht : Funs t) {cs : List Expr} {a b b' : α} (h : Acts t cs a b)
    (h' : Acts t cs a b') : b = b' := by
  induction h with
  | nil a => cases h'; rfl
  | act hn hm hf _ ih =>
    cases h' with
    | @act _ _ _ _ _ n' f' hn' hm' hf' hr' =>
      have : n' = _ := String.toList_inj.1 (Option.some.inj (hn'.symm.trans hn))
      subst this
      have := ht _ _ _ hm hm' _ _ _ _ hf hf'
      subst this
      exact ih hr'
    | skip hs _ => exact absurd hn (hs _ hm)
  | skip hs _ ih =>
    cases h' with
    | act hn' hm' _ _ => exact absurd hn' (hs _ hm')
    | skip _ hr' => exact ih hr'

theorem acts_same {t : List (String × Effect α)} {g : List String} (ht : Funs t) (hg : ∀ p ∈ t, p.1 ∈ g) {cs cs' : List Expr}
    (hc : cs.filter (named g) = cs'.filter (named g)) {a b b' : α} (h : Acts t cs a b) (h' : Acts t cs' a b') : b = b' :=
  acts_unique ht (acts_only hg h) (hc ▸ acts_only hg h')

/-- The effects on a part of the setting. -/
theorem acts_part {t : List (String × Effect α)} {t' : List (String × Effect β)} (get : α → β)
    (hn : ∀ q ∈ t', ∃ p ∈ t, p.1 = q.1)
    (h : ∀ p ∈ t, (∃ f, (p.1, f) ∈ t' ∧ ∀ args a b, p.2 args a b → f args (get a) (get b)) ∨
      ((∀ q ∈ t', q.1 ≠ p.1) ∧ ∀ args a b, p.2 args a b → get b = get a))
    {cs : List Expr} {a b : α} (hc : Acts t cs a b) : Acts t' cs (get a) (get b) := by
  induction hc with
  | nil a => exact .nil _
  | @act c cs a b d n f hname hm hf _ ih =>
    rcases h _ hm with ⟨f', hm', hf'⟩ | ⟨hno, hk⟩
    · exact .act hname hm' (hf' _ _ _ hf) ih
    · refine .skip (fun q hq hq' => ?_) (hk _ _ _ hf ▸ ih)
      exact hno q hq (String.toList_inj.1 (Option.some.inj (hq'.symm.trans hname)))
  | skip hs _ ih =>
    refine .skip (fun q hq => ?_) ih
    obtain ⟨p, hp, hpq⟩ := hn q hq
    rw [← hpq]
    exact hs p hp

/-! ## Functional effects -/

variable {P : PlotEnv φ} {E : ReadEnv}

theorem fun_text : Fun (sets IsText) := by
  rintro args a b b' ⟨r, h⟩ ⟨r', h'⟩
  rcases h with rfl | rfl <;> rcases h' with h' | h' <;> cases h' <;> rfl

theorem fun_ok {ε : Type} {f : List Expr → Except ε α} {R : List Expr → α → Prop} (h : ∀ args v, f args = .ok v ↔ R args v) :
    Fun (sets R) := fun args a b b' h1 h2 => by
  have h1 := (h args b).2 h1
  rw [(h args b').2 h2] at h1
  cases h1; rfl

theorem fun_size : Fun (sets (IsSize E)) := fun_ok fun _ _ => readSize_ok
theorem fun_number : Fun (sets (IsNumber E)) := fun_ok fun _ _ => readFloat_ok
theorem fun_measure : Fun (sets (IsMeasure P)) := fun_ok fun _ _ => readMeasure_ok
theorem fun_color : Fun (sets (IsColor E)) := by
  rintro args a b b' ⟨e, r, rfl, h⟩ ⟨e', r', h', h2⟩
  cases h'
  have h := h .black
  rw [h2 .black] at h
  cases h; rfl
theorem fun_head : Fun (sets fun args (v : Option Expr) => v = args.head?) := by rintro _ _ _ _ rfl rfl; rfl
theorem fun_reader {ε : Type} {f : List Expr → Except ε α} : Fun (sets fun args v => f args = .ok v) := fun_ok fun _ _ => .rfl
theorem fun_some {ε γ : Type} {f : List Expr → Except ε γ} : Fun (sets fun args v => ∃ m, f args = .ok m ∧ v = some m) := by
  rintro args a b b' ⟨m, h, rfl⟩ ⟨m', h', rfl⟩
  rw [h] at h'; cases h'; rfl
theorem fun_texts : Fun (Texts P) := fun args a b b' h h' => by
  have h := loadStrings_ok.2 h
  rw [loadStrings_ok.2 h'] at h
  cases h; rfl
theorem fun_data : Fun (AddData P) := by
  rintro args a b b' ⟨v, h, rfl⟩ ⟨v', h', rfl⟩
  rw [h] at h'; cases h'; rfl
theorem fun_lengths : Fun (AddLengths P) := fun args a b b' h h' => by
  have h := loadMeasures_ok.2 h
  rw [loadMeasures_ok.2 h'] at h
  cases h; rfl
theorem fun_font : Fun (AddFont P) := by
  rintro args a b b' ⟨t, f, h, hf, rfl⟩ ⟨t', f', h', hf', rfl⟩
  have := fun_text args [] t t' h h'
  subst this
  rw [hf] at hf'; cases hf'; rfl
theorem fun_polys : Fun (AddPolys P) := by
  rintro args a b b' ⟨k, f, as, rest, ps, rfl, hk, h, rfl⟩ ⟨k', f', as', rest', ps', he, hk', h', rfl⟩
  cases he
  have : f = f' := by rcases hk with rfl | rfl <;> rcases hk' with hk' | hk' <;> cases hk' <;> rfl
  subst this
  rw [h] at h'; cases h'; rfl
theorem fun_placement : Fun (sets (IsPlacement P)) := by
  rintro args a b b' ⟨t, h, rfl⟩ ⟨t', h', rfl⟩
  have h := (C92_placement _ _ _).2 h
  rw [(C92_placement _ _ _).2 h'] at h
  cases h; rfl
theorem fun_oneOf {words : List (String × α)} (h : (words.map (·.1)).Nodup) : Fun (sets (IsOneOf words)) := by
  rintro args a b b' ⟨w, hw, hm⟩ ⟨w', hw', hm'⟩
  have : w = w' := String.toList_inj.1 (fun_text args [] _ _ hw hw')
  subst this
  induction words with
  | nil => simp at hm
  | cons p ps ih =>
    simp only [List.map_cons, List.nodup_cons] at h
    rcases List.mem_cons.1 hm with rfl | hm <;> rcases List.mem_cons.1 hm' with hm' | hm'
    · cases hm'; rfl
    · exact absurd (List.mem_map.2 ⟨_, hm', rfl⟩) h.1
    · exact absurd (List.mem_map.2 ⟨_, hm, (congrArg Prod.fst hm' : _)⟩) h.1
    · exact ih h.2 hm hm'
theorem fun_strokeColor : Fun (Options.strokeColor E) := by
  rintro args a b b' ⟨c, h, rfl⟩ ⟨c', h', rfl⟩
  rw [fun_color args .black _ _ h h']
theorem fun_strokeWidth : Fun (Options.strokeWidth E) := by
  rintro args a b b' ⟨c, h, rfl⟩ ⟨c', h', rfl⟩
  rw [fun_size args 0 _ _ h h']
theorem fun_border : Fun BorderStyle := by
  rintro args a b b' (⟨h, rfl⟩ | ⟨h, rfl⟩) (⟨h', rfl⟩ | ⟨h', rfl⟩)
  · rfl
  · exact absurd h h'
  · exact absurd h' h
  · rfl
theorem fun_scale : Fun (ScaleWords P) := fun args a b b' h h' => by
  have h := (C92_scale P _ _ _).2 h
  rw [(C92_scale P _ _ _).2 h'] at h
  cases h; rfl
/-- What a reader that keeps nothing else does. -/
def ran (h : Handler α Fail) : Effect α := fun args a b => h args a = (b, none)
theorem fun_ran {h : Handler α Fail} : Fun (ran h) := fun args a b b' h1 h2 => by
  unfold ran at h1 h2
  rw [h1] at h2; cases h2; rfl

/-! ## Parts of a setting -/

theorem acts_table {t t' : List (String × Effect α)} (ht : ∀ p, p ∈ t ↔ p ∈ t') {cs : List Expr} {a b : α} (h : Acts t cs a b) :
    Acts t' cs a b := by
  induction h with
  | nil a => exact .nil a
  | act hn hm hf _ ih => exact .act hn ((ht _).1 hm) hf ih
  | skip hs _ ih => exact .skip (fun p hp => hs p ((ht p).2 hp)) ih

theorem same_name {t : List (String × β)} (h : (t.map (·.1)).Nodup) {n : String} {f g : β} (hf : (n, f) ∈ t) (hg : (n, g) ∈ t) :
    f = g := by
  induction t with
  | nil => simp at hf
  | cons p ps ih =>
    simp only [List.map_cons, List.nodup_cons] at h
    rcases List.mem_cons.1 hf with hf | hf <;> rcases List.mem_cons.1 hg with hg | hg
    · rw [← hf] at hg; cases hg; rfl
    · exact absurd (List.mem_map.2 ⟨_, hg, (congrArg Prod.fst hf : _)⟩) h.1
    · exact absurd (List.mem_map.2 ⟨_, hf, (congrArg Prod.fst hg : _)⟩) h.1
    · exact ih h.2 hf hg

/-- A part of a setting, on which only some options act. -/
theorem part_same {t : List (String × Effect α)} (get : α → β) (g : List String) (hd : (t.map (·.1)).Nodup)
    (hk : ∀ p ∈ t, p.1 ∉ g → ∀ args a b, p.2 args a b → get b = get a)
    (hf : ∀ p ∈ t, p.1 ∈ g → ∀ args a b a' b', get a = get a' → p.2 args a b → p.2 args a' b' → get b = get b')
    {cs cs' : List Expr} (hc : cs.filter (named g) = cs'.filter (named g)) {a b b' : α} (h : Acts t cs a b) (h' : Acts t cs' a b') :
    get b = get b' := by
  let t' : List (String × Effect β) := (t.filter fun p => decide (p.1 ∈ g)).map fun p =>
    (p.1, fun args x y => ∃ a b, get a = x ∧ get b = y ∧ p.2 args a b)
  have hm : ∀ n F, (n, F) ∈ t' → ∃ f, (n, f) ∈ t ∧ n ∈ g ∧ F = fun args x y => ∃ a b, get a = x ∧ get b = y ∧ f args a b := by
    intro n F h
    obtain ⟨p, hp, he⟩ := List.mem_map.1 h
    obtain ⟨hp, hg⟩ := List.mem_filter.1 hp
    cases he
    exact ⟨_, hp, of_decide_eq_true hg, rfl⟩
  have key : ∀ {cs b}, Acts t cs a b → Acts t' cs (get a) (get b) := by
    intro cs b h
    refine acts_part get (fun q hq => ?_) (fun p hp => ?_) h
    · obtain ⟨f, hf, _, _⟩ := hm _ _ hq
      exact ⟨_, hf, rfl⟩
    · by_cases hg : p.1 ∈ g
      · exact .inl ⟨_, List.mem_map.2 ⟨p, List.mem_filter.2 ⟨hp, decide_eq_true hg⟩, rfl⟩, fun args a b h => ⟨a, b, rfl, rfl, h⟩⟩
      · refine .inr ⟨fun q hq he => ?_, hk p hp hg⟩
        obtain ⟨f, _, hg', _⟩ := hm _ _ hq
        exact hg (he ▸ hg')
  refine acts_same (t := t') (g := g) ?_ (fun p hp => (hm _ _ hp).elim fun _ h => h.2.1) hc (key h) (key h')
  intro n F G hF hG
  obtain ⟨f, hf', hg, rfl⟩ := hm _ _ hF
  obtain ⟨f', hf'', _, rfl⟩ := hm _ _ hG
  have := same_name hd hf' hf''
  subst this
  rintro args x y y' ⟨a, b, rfl, rfl, h⟩ ⟨a', b', ha, rfl, h'⟩
  exact hf _ hf' hg args a b a' b' ha.symm h h'

end Clip.Reorder
