import Verif.Spec.ElementPictures
import Verif.Props.LimitsDraw
import Verif.Props.AxisDraw
import Verif.Props.PlotElements
/-!
# Property C94: the pictures of plot elements
-/
set_option linter.unusedSimpArgs false
set_option linter.unusedVariables false
namespace Clip
noncomputable section
open PlotSpec DataSpec Pictures AxisSpec Elements

variable {φ : Type}

/-! ## Where values stand -/

theorem scaleMin_lower (s : Scale) : scaleMin .exact s = lower s := by
  unfold scaleMin lower
  cases s.min <;> cases s.hints.minValue <;> simp [Arith.exact]

theorem scaleMax_upper (s : Scale) : scaleMax .exact s = upper s := by
  unfold scaleMax upper
  cases s.max <;> cases s.hints.maxValue <;> simp [Arith.exact]

theorem logIn_iff (base x y : ℝ) : logIn base x = some y ↔ LogOf base x y := by
  unfold logIn LogOf
  by_cases h0 : x = 0
  · simp [h0, eq_comm]
  · by_cases h1 : x < 0
    · simp [h0, h1, not_lt.2 h1.le]
    · have hx : 0 < x := lt_of_le_of_ne (not_lt.1 h1) (Ne.symm h0)
      by_cases h2 : base ≤ 0 ∨ base = 1
      · rw [if_neg h0, if_neg h1, if_pos h2]
        refine ⟨fun h => by simp at h, ?_⟩
        rintro (⟨h, -⟩ | ⟨-, h3, h4, -⟩)
        · exact absurd h h0
        · rcases h2 with h2 | h2
          · exact absurd h3 (not_lt.2 h2)
          · exact absurd h2 h4
      · rw [if_neg h0, if_neg h1, if_neg h2]
        push Not at h2
        constructor
        · intro h
          exact .inr ⟨hx, h2.1, h2.2, (Option.some.inj h).symm⟩
        · rintro (⟨h, -⟩ | ⟨-, -, -, h⟩)
          · exact absurd h h0
          · rw [h]

theorem categoryAt_iff (s : Scale) (i : Nat) (u : ℝ) : translateCategorical s i = some u ↔ CategoryAt s i u := by
  unfold translateCategorical CategoryAt
  by_cases hn : s.categories.length = 0
  · simp [hn]
  · have h1 : 1 ≤ s.categories.length := by omega
    have hm : (max 0 (Min.min (i : ℝ) ((s.categories.length : ℝ) - 1)) : ℝ) = (min i (s.categories.length - 1) : ℕ) := by
      rw [Nat.cast_min, Nat.cast_sub h1, Nat.cast_one, max_eq_right]
      apply le_min
      · exact Nat.cast_nonneg _
      · have : (1 : ℝ) ≤ s.categories.length := by exact_mod_cast h1
        linarith
    simp only [hn, if_false, hm]
    rw [mul_comm s.padding 2]
    by_cases hd : (s.categories.length : ℝ) - 1 + 2 * s.padding = 0
    · simp [hd]
    · simp [hd, hn, eq_comm]

theorem linear_iff (s : Scale) (hk : s.kind = .linear) (x u : ℝ) : scaleTranslate .exact s x = some u ↔
    lower s ≠ upper s ∧ u = flipped s ((x - lower s) / (upper s - lower s)) := by
  unfold scaleTranslate
  rw [hk]
  have hd : ∀ x, Arith.exact.d x = x := fun _ => rfl
  simp only [translateLinear, scaleMin_lower, scaleMax_upper, hd, flipped]
  by_cases h : upper s - lower s = 0
  · have : lower s = upper s := by linarith
    simp [h, this]
  · have : lower s ≠ upper s := fun e => h (by rw [e]; ring)
    rw [if_neg h, Option.some.injEq]
    exact ⟨fun e => ⟨this, e.symm⟩, fun e => e.2.symm⟩

theorem log_iff (s : Scale) (hk : s.kind = .logarithmic) (x u : ℝ) : scaleTranslate .exact s x = some u ↔
    (x ≤ 0 ∧ u = 0) ∨ (0 < x ∧ ∃ a b l, LogOf s.logBase (lower s) a ∧ LogOf s.logBase (upper s) b ∧ LogOf s.logBase x l ∧
      a ≠ b ∧ u = flipped s ((l - a) / (b - a))) := by
  unfold scaleTranslate
  rw [hk]
  simp only [translateLog, scaleMin_lower, scaleMax_upper]
  by_cases h0 : x ≤ 0
  · simp [h0, not_lt.2 h0, eq_comm]
  · have hx : 0 < x := not_le.1 h0
    rw [if_neg h0]
    simp only [h0, false_and, false_or, hx, true_and, ← logIn_iff]
    cases ha : logIn s.logBase (lower s) with
    | none => simp
    | some a =>
      cases hb : logIn s.logBase (upper s) with
      | none => simp
      | some b =>
        cases hl : logIn s.logBase x with
        | none => simp
        | some l =>
          simp only
          by_cases h : b - a = 0
          · have : a = b := by linarith
            simp [h, this]
          · have : a ≠ b := fun e => h (by rw [e]; ring)
            rw [if_neg h, Option.some.injEq]
            constructor
            · intro e
              exact ⟨a, b, l, rfl, rfl, rfl, this, e.symm⟩
            · rintro ⟨a', b', l', h1, h2, h3, -, e⟩
              cases h1; cases h2; cases h3
              exact e.symm

theorem standsAt_number (P : PlotEnv φ) (s : Scale) (hk : s.kind ≠ .categorical) (v : Datum) (u : ℝ) :
    StandsAt P s v u ↔ ∃ x, v.IsNumber P x ∧ scaleTranslate .exact s x = some u := by
  constructor
  · rintro (⟨h1, h2, h3, h4⟩ | ⟨h1, h2, h3, h4, h5, h6, h7, h8⟩ | ⟨h1, h2, h3, h4⟩ | ⟨h1, h2⟩)
    · exact ⟨_, h2, (linear_iff s h1 _ _).2 ⟨h3, h4⟩⟩
    · exact ⟨_, h2, (log_iff s h1 _ _).2 (.inr ⟨h3, _, _, _, h4, h5, h6, h7, h8⟩)⟩
    · exact ⟨_, h2, (log_iff s h1 _ _).2 (.inl ⟨h3, h4⟩)⟩
    · exact absurd h1 hk
  · rintro ⟨x, h1, h2⟩
    cases hs : s.kind with
    | categorical => exact absurd hs hk
    | linear =>
      obtain ⟨h3, h4⟩ := (linear_iff s hs _ _).1 h2
      exact .linear hs h1 h3 h4
    | logarithmic =>
      rcases (log_iff s hs _ _).1 h2 with ⟨h3, h4⟩ | ⟨h3, a, b, l, h4, h5, h6, h7, h8⟩
      · exact .nonpositive hs h1 h3 h4
      · exact .logarithmic hs h1 h3 h4 h5 h6 h7 h8

theorem placeOf_iff (P : PlotEnv φ) (s : Scale) (x u : ℝ) : PlaceOf P s x u ↔ scaleTranslate .exact s x = some u := by
  unfold PlaceOf
  by_cases hk : s.kind = .categorical
  · simp [hk, scaleTranslate, categoryAt_iff]
  · rw [standsAt_number P s hk]
    simp only [hk, false_and, false_or, not_false_eq_true, true_and, ne_eq]
    constructor
    · rintro ⟨y, h1 | ⟨t, h1, -⟩, h2⟩
      · cases h1; exact h2
      · cases h1
    · intro h
      exact ⟨x, .inl rfl, h⟩

theorem clamp01_minmax (v : ℝ) : clamp01 v = max 0 (min 1 v) := by
  unfold clamp01
  split
  · rename_i h; rw [min_eq_right (by linarith), max_eq_left h.le]
  · split
    · rename_i h; rw [min_eq_left h.le, max_eq_right (by norm_num)]
    · rename_i h1 h2
      rw [min_eq_right (not_lt.1 h2), max_eq_right (not_lt.1 h1)]

theorem baseLine_iff (P : PlotEnv φ) (s : Scale) (z : ℝ) : BaseLine P s z ↔ ∃ u, translateZero s = .ok u ∧ z = clamp01 u := by
  unfold BaseLine InsidePlace translateZero
  simp only [placeOf_iff, clamp01_minmax]
  cases scaleTranslate .exact s 0 <;> simp

/-- `mapM` in `Option`, as a relation. -/
theorem mapM_forall2 {α β : Type} (f : α → Option β) : ∀ (l : List α) (r : List β),
    l.mapM f = some r ↔ List.Forall₂ (fun a b => f a = some b) l r := by
  intro l
  induction l with
  | nil => intro r; simp [eq_comm]
  | cons a l ih =>
    intro r
    simp only [List.mapM_cons, Option.bind_eq_bind, Option.bind_eq_some_iff]
    constructor
    · rintro ⟨b, h1, bs, h2, h3⟩
      simp only [Option.pure_def, Option.some.injEq] at h3
      subst h3
      exact .cons h1 ((ih _).1 h2)
    · intro h
      cases h with
      | cons h1 h2 => exact ⟨_, h1, _, (ih _).2 h2, rfl⟩

theorem forall2_comp {α β γ : Type} {R : α → β → Prop} {S : β → γ → Prop} : ∀ {l : List α} {r : List γ},
    (∃ m, List.Forall₂ R l m ∧ List.Forall₂ S m r) ↔ List.Forall₂ (fun a c => ∃ b, R a b ∧ S b c) l r := by
  intro l
  induction l with
  | nil =>
    intro r
    constructor
    · rintro ⟨m, h1, h2⟩; cases h1; cases h2; exact .nil
    · intro h; cases h; exact ⟨[], .nil, .nil⟩
  | cons a l ih =>
    intro r
    constructor
    · rintro ⟨m, h1, h2⟩
      cases h1 with
      | cons h1 h1' =>
        cases h2 with
        | cons h2 h2' => exact .cons ⟨_, h1, h2⟩ (ih.1 ⟨_, h1', h2'⟩)
    · intro h
      cases h with
      | cons h1 h2 =>
        obtain ⟨b, hb, hb'⟩ := h1
        obtain ⟨m, hm, hm'⟩ := ih.2 h2
        exact ⟨b :: m, .cons hb hm, .cons hb' hm'⟩

theorem firstNonNumber_none (texts : List Str) : ∀ (l : List (Bool × Nat)), firstNonNumber texts l = some none ↔
    ∀ i ∈ l, i.1 = true ∨ ∃ t, texts[i.2]? = some t ∧ isNumber t = true := by
  intro l
  induction l with
  | nil => simp [firstNonNumber]
  | cons i l ih =>
    obtain ⟨n, k⟩ := i
    cases n with
    | true => simp [firstNonNumber, ih]
    | false =>
      simp only [firstNonNumber, Bool.false_eq_true, if_false, List.forall_mem_cons, false_or]
      cases ht : texts[k]? with
      | none => simp
      | some t =>
        by_cases h : isNumber t = true
        · simp [h, ih]
        · simp [h]

theorem mapCategories_iff (s : Scale) : ∀ (ts : List Str) (is : List Nat),
    mapCategories s ts = .ok is ↔ List.Forall₂ (fun t i => s.categoriesMap t = some i) ts is := by
  intro ts
  induction ts with
  | nil => intro is; simp [mapCategories, eq_comm]
  | cons t ts ih =>
    intro is
    rw [mapCategories]
    cases ht : s.categoriesMap t with
    | none =>
      simp only
      constructor
      · intro h; cases h
      · intro h
        cases h with
        | cons h1 h2 => rw [ht] at h1; cases h1
    | some i =>
      simp only
      constructor
      · intro h
        cases hm : mapCategories s ts with
        | ok js =>
          rw [hm] at h
          cases h
          exact .cons ht ((ih _).1 hm)
        | error e => rw [hm] at h; cases h
        | thrown => rw [hm] at h; cases h
        | undefined => rw [hm] at h; cases h
      · intro h
        cases h with
        | cons h1 h2 =>
          rw [ht] at h1
          cases h1
          rw [(ih _).2 h2]

theorem mapM_id_forall2 {β : Type} (l : List (Option β)) (r : List β) :
    l.mapM id = some r ↔ List.Forall₂ (fun a b => a = some b) l r := mapM_forall2 id l r

theorem forall2_congr {α β : Type} {R S : α → β → Prop} (h : ∀ a b, R a b ↔ S a b) {l : List α} {r : List β} :
    List.Forall₂ R l r ↔ List.Forall₂ S l r :=
  ⟨fun h1 => h1.imp fun a b => (h a b).1, fun h1 => h1.imp fun a b => (h a b).2⟩

/-- Positions of the data as the code computes them. -/
theorem positions_iff (P : PlotEnv φ) (s : Scale) (b : DataBuffer (Option ℝ)) (us : List ℝ) :
    translateBuf P s b = .ok us ↔ Positions P s b us := by
  unfold Positions HasValues
  rw [forall2_comp]
  by_cases hk : s.kind = .categorical
  · have e : translateBuf P s b = .ok us ↔ ∃ ts is, databufToText P.toS b = some ts ∧ mapCategories s ts = .ok is ∧
        List.Forall₂ (fun (i : Nat) u => scaleTranslate .exact s (i : ℝ) = some u) is us := by
      unfold translateBuf translatevBuf
      rw [hk]
      simp only
      cases h1 : databufToText P.toS b with
      | none => simp
      | some ts =>
        simp only
        cases h2 : mapCategories s ts with
        | ok is =>
          simp only
          have e : (is.map fun i : ℕ => scaleTranslate .exact s (i : ℝ)).mapM id = some us ↔
              List.Forall₂ (fun (i : Nat) u => scaleTranslate .exact s (i : ℝ) = some u) is us := by
            rw [mapM_id_forall2, List.forall₂_map_left_iff]
          constructor
          · intro h
            split at h
            · rename_i ns hns
              cases h
              exact ⟨ts, is, rfl, h2, e.1 hns⟩
            · cases h
          · rintro ⟨ts', is', h3, h4, h5⟩
            cases h3
            rw [h2] at h4
            cases h4
            rw [e.2 h5]
        | error e => simp [h2]
        | thrown => simp [h2]
        | undefined => simp [h2]
    rw [e]
    unfold databufToText
    simp only [mapM_forall2, mapCategories_iff]
    have e2 : (∃ ts is, List.Forall₂ (fun (x : Bool × Nat) t => (match x with
          | (isNum, pos) => if isNum = true then Option.map P.toS b.numeric[pos]? else b.text[pos]?) = some t) b.index ts ∧
          List.Forall₂ (fun t i => s.categoriesMap t = some i) ts is ∧
          List.Forall₂ (fun (i : Nat) u => scaleTranslate .exact s (i : ℝ) = some u) is us) ↔
        ∃ ts, List.Forall₂ (fun (x : Bool × Nat) t => (match x with
          | (isNum, pos) => if isNum = true then Option.map P.toS b.numeric[pos]? else b.text[pos]?) = some t) b.index ts ∧
          List.Forall₂ (fun t u => ∃ i, s.categoriesMap t = some i ∧ scaleTranslate .exact s ((i : Nat) : ℝ) = some u) ts us := by
      constructor
      · rintro ⟨ts, is, h1, h2, h3⟩
        exact ⟨ts, h1, forall2_comp.1 ⟨is, h2, h3⟩⟩
      · rintro ⟨ts, h1, h2⟩
        obtain ⟨is, h3, h4⟩ := forall2_comp.2 h2
        exact ⟨ts, is, h1, h3, h4⟩
    rw [e2, forall2_comp]
    apply forall2_congr
    rintro ⟨n, k⟩ u
    have hc : ∀ i : Nat, scaleTranslate .exact s (i : ℝ) = some u ↔ CategoryAt s i u := by
      intro i
      rw [← categoryAt_iff]
      simp [scaleTranslate, hk]
    simp only [hc]
    have hst : ∀ v, StandsAt P s v u ↔ ∃ i, s.categoriesMap (v.word P) = some i ∧ CategoryAt s i u := by
      intro v
      constructor
      · rintro (⟨h1, -⟩ | ⟨h1, -⟩ | ⟨h1, -⟩ | ⟨h1, h2, h3⟩)
        · rw [hk] at h1; cases h1
        · rw [hk] at h1; cases h1
        · rw [hk] at h1; cases h1
        · exact ⟨_, h2, h3⟩
      · rintro ⟨i, h1, h2⟩
        exact .category hk h1 h2
    simp only [hst]
    cases n with
    | true =>
      simp only [if_true, true_and, Bool.true_eq_false, false_and, or_false, Option.map_eq_some_iff]
      constructor
      · rintro ⟨t, ⟨x, h1, rfl⟩, h2⟩
        exact ⟨.number x, ⟨x, h1, rfl⟩, h2⟩
      · rintro ⟨v, ⟨x, h1, rfl⟩, h2⟩
        exact ⟨_, ⟨x, h1, rfl⟩, h2⟩
    | false =>
      simp only [Bool.false_eq_true, if_false, false_and, false_or, true_and]
      constructor
      · rintro ⟨t, h1, h2⟩
        exact ⟨.text t, ⟨t, h1, rfl⟩, h2⟩
      · rintro ⟨v, ⟨t, h1, rfl⟩, h2⟩
        exact ⟨_, h1, h2⟩
  · have e : translateBuf P s b = .ok us ↔ firstNonNumber b.text b.index = some none ∧ ∃ vs, databufToNumbers P.parse b = some vs ∧
        List.Forall₂ (fun v u => translateValue .exact s v = some u) vs us := by
      have e1 : translatevBuf .exact P.toS P.parse s b = match firstNonNumber b.text b.index with
          | none => .undefined
          | some (some t) => .error (.notANumber t)
          | some none => match databufToNumbers P.parse b with
            | none => .undefined
            | some vs => .ok (vs.map (translateValue .exact s)) := by
        unfold translatevBuf
        cases hs : s.kind with
        | categorical => exact absurd hs hk
        | linear => rfl
        | logarithmic => rfl
      unfold translateBuf
      rw [e1]
      cases h1 : firstNonNumber b.text b.index with
      | none => simp
      | some o =>
        cases o with
        | some t => simp
        | none =>
          simp only [true_and]
          cases h2 : databufToNumbers P.parse b with
          | none => simp
          | some vs =>
            simp only
            have e : (vs.map (translateValue .exact s)).mapM id = some us ↔
                List.Forall₂ (fun v u => translateValue .exact s v = some u) vs us := by
              rw [mapM_id_forall2, List.forall₂_map_left_iff]
            constructor
            · intro h
              split at h
              · rename_i ns hns
                cases h
                exact ⟨vs, rfl, e.1 hns⟩
              · cases h
            · rintro ⟨vs', h3, h4⟩
              cases h3
              rw [e.2 h4]
    rw [e, firstNonNumber_none]
    unfold databufToNumbers
    simp only [mapM_forall2]
    rw [forall2_comp]
    simp only [standsAt_number P s hk]
    clear e
    generalize b.index = ix
    induction ix generalizing us with
    | nil =>
      constructor
      · rintro ⟨-, h⟩; cases h; exact .nil
      · intro h; cases h; exact ⟨by simp, .nil⟩
    | cons i ix ih =>
      obtain ⟨n, k⟩ := i
      have head : ∀ u, ((n = true ∨ ∃ t, b.text[k]? = some t ∧ isNumber t = true) ∧ ∃ v, (if n = true then b.numeric[k]?
          else (b.text[k]?).map P.parse) = some v ∧ translateValue .exact s v = some u) ↔
          ∃ v : Datum, ((n = true ∧ ∃ x, b.numeric[k]? = some x ∧ v = .number x) ∨
            (n = false ∧ ∃ t, b.text[k]? = some t ∧ v = .text t)) ∧ ∃ x, v.IsNumber P x ∧ scaleTranslate .exact s x = some u := by
        intro u
        unfold translateValue Datum.IsNumber
        cases n with
        | true =>
          simp only [true_or, true_and, if_true, Bool.true_eq_false, false_and, or_false]
          constructor
          · rintro ⟨v, h1, h2⟩
            obtain ⟨x, rfl, h3⟩ := Option.bind_eq_some_iff.1 h2
            exact ⟨.number (some x), ⟨_, h1, rfl⟩, x, .inl rfl, h3⟩
          · rintro ⟨v, ⟨x, h1, rfl⟩, y, h2 | ⟨t, h2, -⟩, h3⟩
            · cases h2
              exact ⟨_, h1, h3⟩
            · cases h2
        | false =>
          simp only [Bool.false_eq_true, false_or, if_false, false_and, true_and, Option.map_eq_some_iff]
          constructor
          · rintro ⟨⟨t, h1, h2⟩, v, ⟨t', h3, rfl⟩, h4⟩
            rw [h1] at h3
            cases h3
            obtain ⟨x, h5, h6⟩ := Option.bind_eq_some_iff.1 h4
            exact ⟨.text t, ⟨t, h1, rfl⟩, x, .inr ⟨t, rfl, h2, h5⟩, h6⟩
          · rintro ⟨v, ⟨t, h1, rfl⟩, y, h2 | ⟨t', h2, h3, h4⟩, h5⟩
            · cases h2
            · cases h2
              exact ⟨⟨t, h1, h3⟩, _, ⟨t, h1, rfl⟩, by rw [h4]; exact h5⟩
      constructor
      · rintro ⟨h1, h2⟩
        cases h2 with
        | cons h3 h4 =>
          rw [List.forall_mem_cons] at h1
          exact .cons ((head _).1 ⟨h1.1, h3⟩) ((ih _).1 ⟨h1.2, h4⟩)
      · intro h
        cases h with
        | cons h3 h4 =>
          obtain ⟨h5, h6⟩ := (ih _).2 h4
          obtain ⟨h7, h8⟩ := (head _).2 h3
          exact ⟨List.forall_mem_cons.2 ⟨h7, h5⟩, .cons h8 h6⟩

theorem positions_length {P : PlotEnv φ} {s : Scale} {b : DataBuffer (Option ℝ)} {us : List ℝ} (h : Positions P s b us) :
    us.length = databufLen b := by
  obtain ⟨vs, h1, h2⟩ := h
  exact h2.length_eq.symm.trans h1.length_eq.symm

/-- Lengths of the data as the code computes them. -/
theorem lengths_iff (P : PlotEnv φ) (s : Scale) (b : DataBuffer (Option ℝ)) (ms : List ℝ) :
    translateMagnitudeBuf P s b = .ok ms ↔ Lengths P s b ms := by
  have hm : ∀ x m, translateMagnitude .exact s x = some m ↔
      ((s.kind = .categorical ∧ m = 1) ∨ (s.kind ≠ .categorical ∧ lower s ≠ upper s ∧ m = x / (upper s - lower s))) := by
    intro x m
    unfold translateMagnitude
    rw [scaleMin_lower, scaleMax_upper]
    cases hk : s.kind with
    | categorical => simp [eq_comm]
    | linear | logarithmic =>
      by_cases h : upper s - lower s = 0
      · have : lower s = upper s := by linarith
        simp [h, this]
      · have : lower s ≠ upper s := fun e => h (by rw [e]; ring)
        simp only [if_neg h, Option.some.injEq, reduceCtorEq, false_and, false_or, not_false_eq_true, true_and, ne_eq]
        exact ⟨fun e => ⟨this, e.symm⟩, fun e => e.2.symm⟩
  have e : translateMagnitudeBuf P s b = .ok ms ↔ ∃ vs, databufToNumbers P.parse b = some vs ∧
      List.Forall₂ (fun v m => v.bind (translateMagnitude .exact s) = some m) vs ms := by
    unfold translateMagnitudeBuf
    cases h1 : databufToNumbers P.parse b with
    | none => simp
    | some vs =>
      simp only [Option.some.injEq, exists_eq_left']
      rw [← mapM_forall2]
      cases h2 : List.mapM (fun v => Option.bind v (translateMagnitude .exact s)) vs <;> simp
  rw [e]
  unfold databufToNumbers Lengths HasValues
  simp only [mapM_forall2]
  rw [forall2_comp, forall2_comp]
  apply forall2_congr
  rintro ⟨n, k⟩ m
  cases n with
  | true =>
    simp only [if_true, true_and, Bool.true_eq_false, false_and, or_false]
    constructor
    · rintro ⟨v, h1, h2⟩
      obtain ⟨x, rfl, h3⟩ := Option.bind_eq_some_iff.1 h2
      exact ⟨.number (some x), ⟨_, h1, rfl⟩, x, .inl rfl, (hm _ _).1 h3⟩
    · rintro ⟨v, ⟨x, h1, rfl⟩, y, h2 | ⟨t, h2, -⟩, h3⟩
      · cases h2
        exact ⟨_, h1, (hm _ _).2 h3⟩
      · cases h2
  | false =>
    simp only [Bool.false_eq_true, if_false, false_and, false_or, true_and, Option.map_eq_some_iff]
    constructor
    · rintro ⟨v, ⟨t, h1, rfl⟩, h2⟩
      obtain ⟨x, h3, h4⟩ := Option.bind_eq_some_iff.1 h2
      exact ⟨.text t, ⟨t, h1, rfl⟩, x, .inr ⟨t, rfl, h3⟩, (hm _ _).1 h4⟩
    · rintro ⟨v, ⟨t, h1, rfl⟩, y, h2 | ⟨t', h2, h3⟩, h4⟩
      · cases h2
      · cases h2
        exact ⟨_, ⟨t, h1, rfl⟩, by rw [h3]; exact (hm _ _).2 h4⟩

theorem lengths_length {P : PlotEnv φ} {s : Scale} {b : DataBuffer (Option ℝ)} {us : List ℝ} (h : Lengths P s b us) :
    us.length = databufLen b := by
  obtain ⟨vs, h1, h2⟩ := h
  exact h2.length_eq.symm.trans h1.length_eq.symm

/-! ## Shapes -/

theorem styled_eq (k : StrokeState) (f : FillStyle) : addStroke k.style (addFill f Compound.none) = styled k f := by
  obtain ⟨c, h⟩ := f
  unfold styled addStroke addFill StrokeState.style Compound.none
  by_cases h1 : k.width = 0 <;> by_cases h2 : k.dashed = true <;> cases c <;> cases h <;> simp [h1, h2]

theorem renderPath_eq (k : StrokeState) (f : FillStyle) (crisp : Bool) (p : Path) (L : Layer φ) :
    renderPath k f crisp p L = draw L [⟨p, styled k f, crisp⟩] := by
  unfold renderPath drawShape draw
  rw [styled_eq]

theorem styled_fill (color : Color) : styled .default ⟨some color, none⟩ = ⟨[color], [], [], []⟩ := by
  unfold styled StrokeState.default
  simp

open Classical in
theorem styled_line (w : ℝ) (color : Color) : styled { StrokeState.default with width := w, color := color } .default =
    ⟨[], [], if w = 0 then [] else [⟨color, w⟩], []⟩ := by
  unfold styled StrokeState.default FillStyle.default
  by_cases h : w = 0 <;> simp [h]

/-- The step draws a picture of this kind, or fails. -/
def DrawsA (F : List φ) (dpi : ℝ) (f : Layer φ → Layer φ × Option Fail) (Q : List DrawCmd → Prop) : Prop :=
  ∀ L : Layer φ, L.fonts = F → L.size.dpi = dpi → ∀ L', f L = (L', none) ↔ ∃ shapes, Q shapes ∧ L' = draw L shapes

theorem inOrder_nil (shapes : List DrawCmd) : InOrder [] shapes ↔ shapes = [] := by
  unfold InOrder
  constructor
  · rintro ⟨ps, h1, h2⟩
    cases h1
    exact h2
  · rintro rfl
    exact ⟨[], .nil, rfl⟩

theorem inOrder_cons (Q : List DrawCmd → Prop) (Qs : List (List DrawCmd → Prop)) (shapes : List DrawCmd) :
    InOrder (Q :: Qs) shapes ↔ ∃ a b, Q a ∧ InOrder Qs b ∧ shapes = a ++ b := by
  unfold InOrder
  constructor
  · rintro ⟨ps, h1, h2⟩
    cases h1 with
    | cons h3 h4 => exact ⟨_, _, h3, ⟨_, h4, rfl⟩, h2⟩
  · rintro ⟨a, b, h1, ⟨ps, h2, rfl⟩, rfl⟩
    exact ⟨a :: ps, .cons h1 h2, rfl⟩

theorem inOrder_one (Q : List DrawCmd → Prop) (shapes : List DrawCmd) : InOrder [Q] shapes ↔ Q shapes := by
  rw [inOrder_cons]
  simp only [inOrder_nil]
  constructor
  · rintro ⟨a, b, h, rfl, rfl⟩
    simpa using h
  · intro h
    exact ⟨shapes, [], h, rfl, by simp⟩

theorem chain_draws {F : List φ} {dpi : ℝ} {fs : List (Layer φ → Layer φ × Option Fail)} {Qs : List (List DrawCmd → Prop)}
    (h : List.Forall₂ (DrawsA F dpi) fs Qs) : DrawsA F dpi (tryChain fs) (InOrder Qs) := by
  induction h with
  | nil =>
    intro L _ _ L'
    simp only [tryChain, inOrder_nil, Prod.mk.injEq, and_true, exists_eq_left, draw_nil]
    exact eq_comm
  | cons h1 _ ih =>
    intro L hF hd L'
    rw [chain_cons]
    simp only [inOrder_cons]
    constructor
    · rintro ⟨L₁, h2, h3⟩
      obtain ⟨a, ha, rfl⟩ := (h1 L hF hd _).1 h2
      obtain ⟨b, hb, rfl⟩ := (ih _ (by exact hF) (by exact hd) _).1 h3
      exact ⟨_, ⟨a, b, ha, hb, rfl⟩, draw_draw _ _ _⟩
    · rintro ⟨_, ⟨a, b, ha, hb, rfl⟩, rfl⟩
      exact ⟨draw L a, (h1 L hF hd _).2 ⟨a, ha, rfl⟩, (ih _ (by exact hF) (by exact hd) _).2 ⟨b, hb, (draw_draw _ _ _).symm⟩⟩

theorem drawsA_path {F : List φ} {dpi : ℝ} (k : StrokeState) (f : FillStyle) (crisp : Bool) (p : Path) :
    DrawsA F dpi (fun L => (renderPath k f crisp p L, none)) (fun shapes => shapes = [⟨p, styled k f, crisp⟩]) := by
  intro L _ _ L'
  simp only [renderPath_eq, Prod.mk.injEq, and_true, exists_eq_left]
  exact eq_comm

theorem drawsA_text {T : TextEnv φ} (hT : LevelsOfChars T) {F : List φ} {dpi : ℝ} (t : Str) (pos : Vec2) (ax : HAlign)
    (ay : VAlign) (fonts : List φ) (size : ℝ) (color : Color) :
    DrawsA F dpi (fun L => drawTextRotated T L t pos ax ay 0 fonts size color) (Text T fonts size dpi color t pos ax ay) := by
  intro L _ hd L'
  have e : (fun c : DrawCmd => ({ c with path := c.path.map (onPoints (turned pos 0)) } : DrawCmd)) = id :=
    funext fun c => turnShape_zero pos c
  rw [C83_rotated T hT, e, hd]
  simp only [List.map_id]
  unfold Text
  constructor
  · rintro ⟨h1, sh, h2, h3⟩; exact ⟨sh, ⟨h1, h2⟩, h3⟩
  · rintro ⟨sh, ⟨h1, h2⟩, h3⟩; exact ⟨h1, sh, h2, h3⟩

theorem DrawsA.fonts {F : List φ} {dpi : ℝ} {f : List φ → Layer φ → Layer φ × Option Fail} {Q : List DrawCmd → Prop}
    (h : DrawsA F dpi (f F) Q) : DrawsA F dpi (fun L => f L.fonts L) Q := by
  intro L hF hd L'
  have := h L hF hd L'
  rw [← hF] at this
  exact this

theorem drawsA_marker {P : PlotEnv φ} (hT : LevelsOfChars P.text) {F : List φ} {dpi : ℝ} (m : Marker) (pos : Vec2) (size : ℝ)
    (color : Color) : DrawsA F dpi (renderMarker P m pos size color) (MarkerAt P.text F dpi m pos size color) := by
  unfold renderMarker MarkerAt
  cases markerDraw m pos size with
  | filled p =>
    have := drawsA_path (F := F) (dpi := dpi) .default ⟨some color, none⟩ false p
    rw [styled_fill] at this
    exact this
  | stroked p w =>
    have := drawsA_path (F := F) (dpi := dpi) { StrokeState.default with width := w, color := color } .default false p
    rw [styled_line] at this
    exact this
  | text t pos ax ay fs =>
    exact DrawsA.fonts (f := fun fonts L => drawTextRotated P.text L t pos ax ay 0 fonts fs color)
      (drawsA_text hT t pos ax ay F fs color)

theorem drawsA_congr {F : List φ} {dpi : ℝ} {f : Layer φ → Layer φ × Option Fail} {Q Q' : List DrawCmd → Prop}
    (h : DrawsA F dpi f Q) (he : ∀ sh, Q sh ↔ Q' sh) : DrawsA F dpi f Q' := by
  intro L hF hd L'
  rw [h L hF hd]
  simp only [he]

/-- The direction of a vector is unique. -/
theorem unit_unique {v d d' : Vec2} (h : d.x ^ 2 + d.y ^ 2 = 1) (h' : d'.x ^ 2 + d'.y ^ 2 = 1)
    (hd : ∃ m > 0, v.x = m * d.x ∧ v.y = m * d.y) (hd' : ∃ m > 0, v.x = m * d'.x ∧ v.y = m * d'.y) : d = d' := by
  obtain ⟨m, hm, h1, h2⟩ := hd
  obtain ⟨m', hm', h3, h4⟩ := hd'
  have hmm : m ^ 2 = m' ^ 2 := by
    have a1 : m ^ 2 = v.x ^ 2 + v.y ^ 2 := by rw [h1, h2]; linear_combination (-(m ^ 2)) * h
    have a2 : m' ^ 2 = v.x ^ 2 + v.y ^ 2 := by rw [h3, h4]; linear_combination (-(m' ^ 2)) * h'
    rw [a1, a2]
  have hm2 : m = m' := by
    have := (sq_eq_sq_iff_abs_eq_abs _ _).1 hmm
    rwa [abs_of_pos hm, abs_of_pos hm'] at this
  subst hm2
  ext
  · exact mul_left_cancel₀ hm.ne' (by rw [← h1, ← h3])
  · exact mul_left_cancel₀ hm.ne' (by rw [← h2, ← h4])

theorem drawsA_arrow {F : List φ} {dpi : ℝ} (p q : Vec2) (size : ℝ) (color : Color) :
    DrawsA F dpi (renderArrow p q size color) (Arrow p q size color) := by
  by_cases hne : p = q
  · subst hne
    have h0 : arrowDefault p p size = none := by
      simp [arrowDefault, Vec2.normalize, Vec2.sub, Vec2.magnitude]
    intro L _ _ L'
    unfold renderArrow Arrow
    rw [h0]
    simp only [Prod.mk.injEq, reduceCtorEq, and_false, false_iff, not_exists, not_and]
    rintro sh ⟨d, h1, ⟨m, hm, h2, h3⟩, -⟩
    simp only [sub_self] at h2 h3
    have e1 : d.x = 0 := by
      rcases mul_eq_zero.1 h2.symm with h | h
      · exact absurd h hm.ne'
      · exact h
    have e2 : d.y = 0 := by
      rcases mul_eq_zero.1 h3.symm with h | h
      · exact absurd h hm.ne'
      · exact h
    rw [e1, e2] at h1
    norm_num at h1
  · obtain ⟨d, hd1, ⟨m, hm, hdx, hdy⟩, he⟩ := C63_arrow p q size hne
    have h1 := chain_draws (.cons (drawsA_path (F := F) (dpi := dpi) { StrokeState.default with width := size, color := color }
      .default false (polyline [p, q])) (.cons (drawsA_path (F := F) (dpi := dpi) .default ⟨some color, none⟩ false
        (ring [⟨q.x + 2 * size * d.y, q.y - 2 * size * d.x⟩, ⟨q.x - 2 * size * d.y, q.y + 2 * size * d.x⟩,
          ⟨q.x + 4 * size * d.x, q.y + 4 * size * d.y⟩])) .nil))
    rw [styled_fill, styled_line] at h1
    intro L hF hdpi L'
    have h2 : renderArrow p q size color L = tryChain [fun L => (renderPath { StrokeState.default with width := size, color := color }
      .default false (polyline [p, q]) L, none), fun L => (renderPath .default ⟨some color, none⟩ false
        (ring [⟨q.x + 2 * size * d.y, q.y - 2 * size * d.x⟩, ⟨q.x - 2 * size * d.y, q.y + 2 * size * d.x⟩,
          ⟨q.x + 4 * size * d.x, q.y + 4 * size * d.y⟩]) L, none)] L := by
      unfold renderArrow
      rw [he]
      rfl
    rw [h2, h1 L hF hdpi]
    constructor
    · rintro ⟨sh, h3, h4⟩
      exact ⟨sh, ⟨d, hd1, ⟨m, hm, hdx, hdy⟩, h3⟩, h4⟩
    · rintro ⟨sh, ⟨d', e1, e2, h3⟩, h4⟩
      cases unit_unique (v := ⟨q.x - p.x, q.y - p.y⟩) e1 hd1 e2 ⟨m, hm, hdx, hdy⟩
      exact ⟨sh, h3, h4⟩

theorem errorbarBar_eq (w : ℝ) (p q : Vec2) (hne : p ≠ q) :
    ∃ o : Vec2, o.x ^ 2 + o.y ^ 2 = 1 ∧ (∃ m > 0, q.y - p.y = m * o.x ∧ p.x - q.x = m * o.y) ∧
      errorbarBar w p q = some [polyline [p, q],
        polyline [⟨p.x - w / 2 * o.x, p.y - w / 2 * o.y⟩, ⟨p.x + w / 2 * o.x, p.y + w / 2 * o.y⟩],
        polyline [⟨q.x - w / 2 * o.x, q.y - w / 2 * o.y⟩, ⟨q.x + w / 2 * o.x, q.y + w / 2 * o.y⟩]] := by
  have hpos : 0 < (q.x - p.x) * (q.x - p.x) + (q.y - p.y) * (q.y - p.y) := by
    by_contra hcon
    have h1 : q.x - p.x = 0 := by nlinarith [mul_self_nonneg (q.x - p.x), mul_self_nonneg (q.y - p.y)]
    have h2 : q.y - p.y = 0 := by nlinarith [mul_self_nonneg (q.x - p.x), mul_self_nonneg (q.y - p.y)]
    apply hne
    ext <;> linarith
  have hm : 0 < (q.sub p).magnitude := by
    simp only [Vec2.magnitude, Vec2.sub]
    exact Real.sqrt_pos.2 hpos
  have hsq : (q.sub p).magnitude * (q.sub p).magnitude = (q.x - p.x) * (q.x - p.x) + (q.y - p.y) * (q.y - p.y) := by
    simp only [Vec2.magnitude, Vec2.sub]
    exact Real.mul_self_sqrt hpos.le
  generalize hM : (q.sub p).magnitude = m at hm hsq
  have hm0 := hm.ne'
  refine ⟨⟨(q.y - p.y) / m, -((q.x - p.x) / m)⟩, ?_, ⟨m, hm, ?_, ?_⟩, ?_⟩
  · simp only
    rw [neg_sq, div_pow, div_pow, ← add_div, div_eq_one_iff_eq (pow_ne_zero 2 hm0)]
    linarith
  · field_simp
  · simp only
    field_simp
    ring
  · simp only [errorbarBar, Vec2.normalize, hM, hm0, if_false, Option.bind_eq_bind, Option.bind_some]
    simp only [Vec2.sub, Vec2.add, Vec2.scale, pathAddLine, polyline, Option.pure_def, List.nil_append, List.map_cons,
      List.map_nil, Option.some.injEq, List.cons.injEq, PathCmd.moveTo.injEq, PathCmd.lineTo.injEq, and_true, true_and]
    refine ⟨⟨⟨?_, ?_⟩, ?_, ?_⟩, ⟨?_, ?_⟩, ?_, ?_⟩ <;> ring

theorem drawsA_foldl {F : List φ} {dpi : ℝ} (k : StrokeState) (f : FillStyle) (crisp : Bool) (ps : List Path) :
    DrawsA F dpi (fun L => (ps.foldl (fun L p => renderPath k f crisp p L) L, none))
      (InOrder (ps.map fun p shapes => shapes = [⟨p, styled k f, crisp⟩])) := by
  have e : (fun L : Layer φ => (ps.foldl (fun L p => renderPath k f crisp p L) L, (none : Option Fail))) =
      tryChain (ps.map fun p L => (renderPath k f crisp p L, none)) := by
    funext L
    induction ps generalizing L with
    | nil => rfl
    | cons p ps ih => simp only [List.foldl_cons, List.map_cons, tryChain]; exact ih _
  rw [e]
  clear e
  apply chain_draws
  induction ps with
  | nil => exact .nil
  | cons p ps ih => exact .cons (drawsA_path k f crisp p) ih

theorem drawsA_errorbar {F : List φ} {dpi : ℝ} (p q : Vec2) (capWidth width : ℝ) (color : Color) :
    DrawsA F dpi (renderErrorbar width capWidth color (p, q)) (ErrorBar p q capWidth width color) := by
  intro L hF hdpi L'
  by_cases hne : p = q
  · subst hne
    unfold renderErrorbar ErrorBar
    simp [C63_errorbar_degenerate]
  · obtain ⟨o, ho, hm, he⟩ := errorbarBar_eq capWidth p q hne
    have h1 := drawsA_foldl (F := F) (dpi := dpi) { StrokeState.default with width := width, color := color } .default false
      [polyline [p, q],
        polyline [⟨p.x - capWidth / 2 * o.x, p.y - capWidth / 2 * o.y⟩, ⟨p.x + capWidth / 2 * o.x, p.y + capWidth / 2 * o.y⟩],
        polyline [⟨q.x - capWidth / 2 * o.x, q.y - capWidth / 2 * o.y⟩, ⟨q.x + capWidth / 2 * o.x, q.y + capWidth / 2 * o.y⟩]]
    rw [styled_line] at h1
    unfold renderErrorbar
    simp only [he]
    rw [h1 L hF hdpi]
    constructor
    · rintro ⟨sh, h3, h4⟩
      exact ⟨sh, ⟨hne, o, ho, hm, h3⟩, h4⟩
    · rintro ⟨sh, ⟨-, o', e1, e2, h3⟩, h4⟩
      cases unit_unique (v := ⟨q.y - p.y, p.x - q.x⟩) e1 ho e2 hm
      exact ⟨sh, h3, h4⟩

/-- The picture of a part of an element. -/
def OpPicture (T : TextEnv φ) (st : OpStyle φ) (F : List φ) (dpi : ℝ) : PlotOp Marker Color → List DrawCmd → Prop
  | .path p => Shape st.stroke st.fill p
  | .marker m pos size color => MarkerAt T F dpi m pos size color
  | .arrow _ a b size color => Arrow a b size color
  | .text t pos ax ay => Text T st.fonts st.fontSize dpi st.textColor t pos ax ay

theorem drawsA_ops {P : PlotEnv φ} (hT : LevelsOfChars P.text) {F : List φ} {dpi : ℝ} (st : OpStyle φ)
    (ops : List (PlotOp Marker Color)) : DrawsA F dpi (renderOps P st ops) (InOrder (ops.map (OpPicture P.text st F dpi))) := by
  apply chain_draws
  induction ops with
  | nil => exact .nil
  | cons op ops ih =>
    refine .cons ?_ ih
    cases op with
    | path p => exact drawsA_path _ _ _ _
    | marker m pos size color => exact drawsA_marker hT m pos size color
    | arrow m a b size color => exact drawsA_arrow a b size color
    | text t pos ax ay => exact drawsA_text hT t pos ax ay _ _ _

/-- Drawing on the page of a plot. -/
theorem drawOn_iff {s s' : PlotState φ} {f : Layer φ → Layer φ × Option Fail} {Q : List DrawCmd → Prop}
    (h : DrawsA s.layer.fonts s.layer.size.dpi f Q) :
    drawOn s (f s.layer) = (s', none) ↔ ∃ shapes, Q shapes ∧ s' = { s with layer := draw s.layer shapes } := by
  have := h s.layer rfl rfl
  unfold drawOn
  rw [Prod.mk.injEq]
  constructor
  · rintro ⟨h1, h2⟩
    obtain ⟨sh, h3, h4⟩ := (this (f s.layer).1).1 (Prod.ext rfl h2)
    exact ⟨sh, h3, by rw [← h1, h4]⟩
  · rintro ⟨sh, h1, rfl⟩
    have h2 := (this _).2 ⟨sh, h1, rfl⟩
    rw [h2]
    exact ⟨rfl, rfl⟩

theorem nth_eq {α : Type} (d : α) (l : List α) (i : Nat) : cycleOr d l i = nth d l i := by
  unfold cycleOr nth
  split
  · rename_i h
    rw [List.length_eq_zero_iff] at h
    subst h
    simp
  · rename_i h
    rw [List.getElem?_eq_getElem (Nat.mod_lt _ (Nat.pos_of_ne_zero h))]
    rfl

/-! ## Lines -/

theorem databufLen_addNum {ν : Type} (b : DataBuffer ν) (v : ν) : databufLen (databufAddNum b v) = databufLen b + 1 := by
  simp [databufLen, databufAddNum]

theorem vertices_len {ν : Type} (vs : List (ν × ν)) : ∀ (st : DataBuffer ν × DataBuffer ν × List Nat),
    (vs.foldl (fun s v => (databufAddNum s.1 v.1, databufAddNum s.2.1 v.2, s.2.2)) st).2.2 = st.2.2 ∧
    databufLen (vs.foldl (fun s v => (databufAddNum s.1 v.1, databufAddNum s.2.1 v.2, s.2.2)) st).1 = databufLen st.1 + vs.length ∧
    databufLen (vs.foldl (fun s v => (databufAddNum s.1 v.1, databufAddNum s.2.1 v.2, s.2.2)) st).2.1 =
      databufLen st.2.1 + vs.length := by
  induction vs with
  | nil => intro st; simp
  | cons v vs ih =>
    intro st
    simp only [List.foldl_cons]
    obtain ⟨h1, h2, h3⟩ := ih (databufAddNum st.1 v.1, databufAddNum st.2.1 v.2, st.2.2)
    refine ⟨h1, ?_, ?_⟩
    · rw [h2, databufLen_addNum, List.length_cons]; omega
    · rw [h3, databufLen_addNum, List.length_cons]; omega

/-- The cuts between series are in order, inside the data. -/
def CutsOk {ν : Type} (st : DataBuffer ν × DataBuffer ν × List Nat) : Prop :=
  st.2.2.Pairwise (· ≤ ·) ∧ ∀ k ∈ st.2.2, k ≤ min (databufLen st.1) (databufLen st.2.1)

theorem onLine_cuts {ν : Type} {st : DataBuffer ν × DataBuffer ν × List Nat} (h : CutsOk st) (vs : List (ν × ν)) :
    CutsOk (onLine st vs) := by
  unfold onLine
  simp only
  obtain ⟨h1, h2, h3⟩ := vertices_len vs (st.1, st.2.1,
    if min (databufLen st.1) (databufLen st.2.1) > 0 then st.2.2 ++ [min (databufLen st.1) (databufLen st.2.1)] else st.2.2)
  unfold CutsOk
  rw [h1, h2, h3]
  simp only
  split
  · refine ⟨?_, ?_⟩
    · rw [List.pairwise_append]
      refine ⟨h.1, by simp, fun a ha b hb => ?_⟩
      rw [List.mem_singleton] at hb
      subst hb
      exact h.2 a ha
    · intro k hk
      rw [List.mem_append, List.mem_singleton] at hk
      rcases hk with hk | rfl
      · have := h.2 k hk; omega
      · omega
  · refine ⟨h.1, fun k hk => ?_⟩
    have := h.2 k hk
    omega

theorem polylines_cuts {ν : Type} {readFile : Str → Option Str} {geo : LineReader ν} {path format : Str}
    {refX refY : Option Expr} {x₀ y₀ x y : DataBuffer ν} {g : List Nat} {u : Unit}
    (h : dataLoadPolylines2 readFile geo path format refX refY x₀ y₀ [] = ((x, y, g), .ok u)) : CutsOk (x, y, g) := by
  have h0 : ∀ a b : DataBuffer ν, CutsOk (a, b, []) := fun a b => ⟨List.Pairwise.nil, by simp⟩
  have hf : ∀ (ls : List (List (ν × ν))) st, CutsOk st → CutsOk (ls.foldl onLine st) := by
    intro ls
    induction ls with
    | nil => intro st h; exact h
    | cons l ls ih => intro st h; exact ih _ (onLine_cuts h l)
  unfold dataLoadPolylines2 at h
  split at h
  · simp only at h
    split at h
    · by_cases h1 : path.isEmpty = true
      · rw [if_pos h1] at h
        cases h
        exact h0 _ _
      · rw [if_neg h1] at h
        by_cases h2 : (detectFormat path format).isEmpty = true
        · rw [if_pos h2] at h
          cases (Prod.mk.inj h).2
        · rw [if_neg h2] at h
          by_cases h3 : detectFormat path format = "csv".toList
          · rw [if_pos h3] at h
            repeat' split at h
            all_goals first
              | (cases (Prod.mk.inj h).2; done)
              | (cases (Prod.mk.inj h).1; exact h0 _ _)
          · rw [if_neg h3] at h
            by_cases h4 : detectFormat path format = "geojson".toList
            · rw [if_pos h4] at h
              have h5 := (Prod.mk.inj h).1
              rw [← h5]
              exact hf _ _ (h0 _ _)
            · rw [if_neg h4] at h
              cases (Prod.mk.inj h).2
    · rename_i hrc _
      exact absurd (Prod.mk.inj h).2 (hrc _)
  · rename_i hrc _
    exact absurd (Prod.mk.inj h).2 (hrc _)

/-- More labels than points: undefined. -/
theorem labels_none {β : Type} (labels : List Str) (xs ys : List ℝ) (hlab : ¬ labels.length ≤ xs.length)
    (f : Nat → Str → ℝ → ℝ → β) :
    ((List.range labels.length).mapM fun i => (do
      let t ← labels[i]?
      let x ← xs[i]?
      let y ← ys[i]?
      return f i t x y : Option β)) = none := by
  apply mapM_none_of _ _ xs.length (by simp; omega)
  have : xs[xs.length]? = none := by simp
  rw [this]
  cases labels[xs.length]? <;> simp

theorem linesRender_iff {P : PlotEnv φ} {c : LinesConf φ} {s s' : PlotState φ} : linesRender P c s = (s', none) ↔
    ∃ us vs, Positions P c.scales.x c.x us ∧ Positions P c.scales.y c.y vs ∧
      drawOn s (renderOps? P ⟨c.stroke, .default, c.labelFonts, c.labelFontSize, c.labelColor⟩
        (linesDraw s.clip ⟨c.groups, c.markerSize, c.markerShape, c.markerColor, c.labels, c.labelPadding,
          c.labelFontSize⟩ us vs) s.layer) = (s', none) := by
  unfold linesRender
  simp only [← positions_iff]
  cases translateBuf P c.scales.x c.x with
  | error f => simp
  | ok xs => cases translateBuf P c.scales.y c.y <;> simp

theorem pointsRender_iff {P : PlotEnv φ} {c : PointsConf φ} {s s' : PlotState φ} : pointsRender P c s = (s', none) ↔
    ∃ us vs, Positions P c.scales.x c.x us ∧ Positions P c.scales.y c.y vs ∧
      drawOn s (renderOps? P ⟨.default, .default, c.labelFonts, c.labelFontSize, c.labelColor⟩
        (pointsDraw s.clip ⟨c.color, c.colors, c.size, c.sizes, c.shape, c.shapes, c.labels, c.labelPadding,
          c.labelFontSize⟩ us vs) s.layer) = (s', none) := by
  unfold pointsRender
  simp only [← positions_iff]
  cases translateBuf P c.scales.x c.x with
  | error f => simp
  | ok xs => cases translateBuf P c.scales.y c.y <;> simp

theorem labelsRender_iff {P : PlotEnv φ} {c : LabelsConf φ} {s s' : PlotState φ} : labelsRender P c s = (s', none) ↔
    ∃ us vs, Positions P c.scales.x c.x us ∧ Positions P c.scales.y c.y vs ∧
      drawOn s (renderOps? P ⟨.default, .default, c.labelFonts, c.labelFontSize, c.labelColor⟩
        (labelsDraw s.clip (measureOr c.labelPadding ⟨.unit, unitFromEm 0.8 c.labelFontSize⟩).value c.labels us vs)
          s.layer) = (s', none) := by
  unfold labelsRender
  simp only [← positions_iff]
  cases translateBuf P c.scales.x c.x with
  | error f => simp
  | ok xs => cases translateBuf P c.scales.y c.y <;> simp

theorem renderOps?_some {P : PlotEnv φ} {st : OpStyle φ} {ops : List (PlotOp Marker Color)} {s s' : PlotState φ}
    (hT : LevelsOfChars P.text) :
    drawOn s (renderOps? P st (some ops) s.layer) = (s', none) ↔ ∃ shapes,
      InOrder (ops.map (OpPicture P.text st s.layer.fonts s.layer.size.dpi)) shapes ∧
      s' = { s with layer := draw s.layer shapes } := drawOn_iff (drawsA_ops hT st ops)

theorem renderOps?_none {P : PlotEnv φ} {st : OpStyle φ} {s s' : PlotState φ} :
    ¬ drawOn s (renderOps? P st none s.layer) = (s', none) := by
  simp [drawOn, renderOps?]

/-- What a command does that reads its options and then draws. -/
theorem withConfig_iff {κ : Type} {configure : PlotState φ → List Expr → Except Fail κ}
    {k : κ → PlotState φ → PlotState φ × Option Fail} {args : List Expr} {s s' : PlotState φ} :
    withConfig configure k args s = (s', none) ↔ ∃ c, configure s args = .ok c ∧ k c s = (s', none) := by
  unfold withConfig
  cases configure s args <;> simp

theorem linesPicture_eq (T : TextEnv φ) (s : PlotState φ) (c : LinesConf φ) (us vs : List ℝ) : LinesPicture T s c us vs =
    InOrder (((((pieces c.groups (us.zip vs)).map fun s_1 => PlotOp.path (seriesPath s.clip s_1)) ++
      lineDecorations s.clip ⟨c.groups, c.markerSize, c.markerShape, c.markerColor, c.labels, c.labelPadding,
          c.labelFontSize⟩ (us.zip vs)).map
      (OpPicture T ⟨c.stroke, .default, c.labelFonts, c.labelFontSize, c.labelColor⟩ s.layer.fonts s.layer.size.dpi))) := by
  unfold LinesPicture lineDecorations
  simp only [List.map_append, List.map_map, List.append_assoc]
  congr 2
  congr 1
  · by_cases h : 0 < c.markerSize
    · simp only [h, gt_iff_lt, if_true, List.map_map]
      rfl
    · simp only [h, gt_iff_lt, if_false, List.map_nil]
  · apply List.map_congr_left
    intro q _
    simp only [Function.comp, OpPicture, up, lengthOr, add_assoc, ite_not, ne_eq]

/-- C94: the lines of a plot.  They are drawn if there are not more labels than points. -/
theorem C94_lines (P : PlotEnv φ) (hT : LevelsOfChars P.text) (s s' : PlotState φ) (hp : s.layer.palette ≠ [])
    (args : List Expr) : linesCmd P args s = (s', none) ↔ ∃ c us vs shapes, linesConfigure P s args = .ok c ∧
      Positions P c.scales.x c.x us ∧ Positions P c.scales.y c.y vs ∧ us.length = vs.length ∧
      (pieces c.groups (us.zip vs)).flatten = us.zip vs ∧ c.labels.length ≤ us.length ∧
      LinesPicture P.text s c us vs shapes ∧ s' = { s with layer := draw s.layer shapes } := by
  have hcfg : ∀ c, linesConfigure P s args = .ok c → databufLen c.x = databufLen c.y ∧ CutsOk (c.x, c.y, c.groups) := by
    intro c hc
    obtain ⟨o, hm, x, y, g, u, h1, h2, -, rfl⟩ := configured_ok (C90_lines P s hp args) hc
    rw [hm.loaded.2.2] at h1
    exact ⟨h2, polylines_cuts h1⟩
  unfold linesCmd
  rw [withConfig_iff]
  constructor
  · rintro ⟨c, hc, h⟩
    obtain ⟨hlen, hcut⟩ := hcfg c hc
    rw [linesRender_iff] at h
    obtain ⟨us, vs, hx, hy, h⟩ := h
    have hl : us.length = vs.length := by rw [positions_length hx, positions_length hy, hlen]
    have hb : ∀ k ∈ c.groups, k ≤ us.length := by
      intro k hk
      have := hcut.2 k hk
      rw [positions_length hx]
      exact this.trans (Nat.min_le_left _ _)
    by_cases hlab : c.labels.length ≤ us.length
    · rw [C42_lines_partial s.clip _ us vs hl hb hlab, renderOps?_some hT] at h
      obtain ⟨shapes, h1, h2⟩ := h
      refine ⟨c, us, vs, shapes, hc, hx, hy, hl, ?_, hlab, ?_, h2⟩
      · exact C42_every_point_once _ _ hcut.1 fun k hk => (hb k hk).trans (by simp [hl])
      · rw [linesPicture_eq]; exact h1
    · rw [C42_surplus_labels_undefined _ _ _ _ (by simpa using hlab)] at h
      exact absurd h renderOps?_none
  · rintro ⟨c, us, vs, shapes, hc, hx, hy, hl, -, hlab, h1, h2⟩
    obtain ⟨hlen, hcut⟩ := hcfg c hc
    have hb : ∀ k ∈ c.groups, k ≤ us.length := by
      intro k hk
      have := hcut.2 k hk
      rw [positions_length hx]
      exact this.trans (Nat.min_le_left _ _)
    refine ⟨c, hc, ?_⟩
    rw [linesRender_iff]
    refine ⟨us, vs, hx, hy, ?_⟩
    rw [C42_lines_partial s.clip _ us vs hl hb hlab, renderOps?_some hT]
    rw [linesPicture_eq] at h1
    exact ⟨shapes, h1, h2⟩

/-! ## Points -/

theorem mapIdx_map {α β γ : Type} (f : Nat → α → β) (g : β → γ) (l : List α) :
    (l.mapIdx f).map g = l.mapIdx fun i a => g (f i a) := by
  apply List.ext_getElem
  · simp
  · intro i h1 h2
    simp

theorem points_surplus {M K : Type} (clip : Rect) (c : PointsConfig M K) (xs ys : List ℝ) (h : ¬ c.labels.length ≤ xs.length) :
    pointsDraw clip c xs ys = none := by
  unfold pointsDraw
  rw [labels_none c.labels xs ys h fun i t x y => (PlotOp.text t ⟨clip.x + x * clip.w, clip.y + y * clip.h +
    (cycleOr 0 c.sizes i * 0.5 + (if c.labelPadding ≠ 0 then c.labelPadding else c.labelFontSize * 0.2))⟩ .center .bottom
      : PlotOp M K)]
  simp only [Option.bind_eq_bind, Option.bind_none, Option.bind_fun_none]

theorem pointsPicture_eq (T : TextEnv φ) (s : PlotState φ) (c : PointsConf φ) (us vs : List ℝ) : PointsPicture T s c us vs =
    InOrder ((((us.zip vs).mapIdx fun i (p : ℝ × ℝ) => PlotOp.marker (cycleOr c.shape c.shapes i) (at_ s.clip p.1 p.2)
        (cycleOr c.size c.sizes i) (cycleOr c.color c.colors i)) ++
      ((c.labels.zip (us.zip vs)).mapIdx fun i (q : Str × ℝ × ℝ) => PlotOp.text q.1 ⟨(at_ s.clip q.2.1 q.2.2).x,
        (at_ s.clip q.2.1 q.2.2).y + (cycleOr 0 c.sizes i * 0.5 +
          (if c.labelPadding ≠ 0 then c.labelPadding else c.labelFontSize * 0.2))⟩ .center .bottom)).map
      (OpPicture T ⟨.default, .default, c.labelFonts, c.labelFontSize, c.labelColor⟩ s.layer.fonts s.layer.size.dpi)) := by
  unfold PointsPicture
  simp only [List.map_append, mapIdx_map, OpPicture, nth_eq, up, lengthOr, ite_not, ne_eq]
  have e : ∀ a : ℝ, a * 0.5 = a / 2 := fun a => by ring
  have e2 : ∀ a : ℝ, a * 0.2 = 0.2 * a := fun a => by ring
  simp only [e, e2]

/-- C94: the points of a plot.  They are drawn if there are not more labels than points. -/
theorem C94_points (P : PlotEnv φ) (hT : LevelsOfChars P.text) (s s' : PlotState φ) (hp : s.layer.palette ≠ [])
    (args : List Expr) : pointsCmd P args s = (s', none) ↔ ∃ c us vs shapes, pointsConfigure P s args = .ok c ∧
      Positions P c.scales.x c.x us ∧ Positions P c.scales.y c.y vs ∧ us.length = vs.length ∧ c.labels.length ≤ us.length ∧
      PointsPicture P.text s c us vs shapes ∧ s' = { s with layer := draw s.layer shapes } := by
  have hcfg : ∀ c, pointsConfigure P s args = .ok c → databufLen c.x = databufLen c.y := by
    intro c hc
    obtain ⟨o, hm, x, y, cs, ss, ⟨u, h1, h2⟩, -, -, rfl⟩ := configured_ok (C90_points P s hp args) hc
    exact h2
  unfold pointsCmd
  rw [withConfig_iff]
  constructor
  · rintro ⟨c, hc, h⟩
    have hlen := hcfg c hc
    rw [pointsRender_iff] at h
    obtain ⟨us, vs, hx, hy, h⟩ := h
    have hl : us.length = vs.length := by rw [positions_length hx, positions_length hy, hlen]
    by_cases hlab : c.labels.length ≤ us.length
    · rw [C63_points_partial s.clip _ us vs hl hlab, renderOps?_some hT] at h
      obtain ⟨shapes, h1, h2⟩ := h
      refine ⟨c, us, vs, shapes, hc, hx, hy, hl, hlab, ?_, h2⟩
      rw [pointsPicture_eq]; exact h1
    · rw [points_surplus _ _ _ _ hlab] at h
      exact absurd h renderOps?_none
  · rintro ⟨c, us, vs, shapes, hc, hx, hy, hl, hlab, h1, h2⟩
    refine ⟨c, hc, ?_⟩
    rw [pointsRender_iff]
    refine ⟨us, vs, hx, hy, ?_⟩
    rw [C63_points_partial s.clip _ us vs hl hlab, renderOps?_some hT]
    rw [pointsPicture_eq] at h1
    exact ⟨shapes, h1, h2⟩

/-! ## Labels -/

theorem labelsPicture_eq (T : TextEnv φ) (s : PlotState φ) (c : LabelsConf φ) (us vs : List ℝ) : LabelsPicture T s c us vs =
    InOrder (((c.labels.zip (us.zip vs)).map fun q => PlotOp.text q.1 ⟨(at_ s.clip q.2.1 (1 - q.2.2)).x,
        (at_ s.clip q.2.1 (1 - q.2.2)).y - (measureOr c.labelPadding ⟨.unit, unitFromEm 0.8 c.labelFontSize⟩).value⟩
          .center .bottom).map
      (OpPicture T ⟨.default, .default, c.labelFonts, c.labelFontSize, c.labelColor⟩ s.layer.fonts s.layer.size.dpi)) := by
  unfold LabelsPicture
  rw [List.map_map]
  congr 1
  apply List.map_congr_left
  intro q _
  have e : (measureOr c.labelPadding ⟨.unit, unitFromEm 0.8 c.labelFontSize⟩).value = orElse c.labelPadding (0.8 * c.labelFontSize) := by
    unfold measureOr orElse unitFromEm
    by_cases h : c.labelPadding.value = 0 <;> simp [h, mul_comm]
  simp only [Function.comp, OpPicture, up, e, sub_eq_add_neg]

/-- C94 (violated by the code): labels are drawn upside down: at the place of the point mirrored in the middle of the plot,
and below it. -/
theorem C94_labels (P : PlotEnv φ) (hT : LevelsOfChars P.text) (s s' : PlotState φ) (hp : s.layer.palette ≠ [])
    (args : List Expr) : labelsCmd P args s = (s', none) ↔ ∃ c us vs shapes, labelsConfigure P s args = .ok c ∧
      Positions P c.scales.x c.x us ∧ Positions P c.scales.y c.y vs ∧ us.length = vs.length ∧ c.labels.length ≤ us.length ∧
      LabelsPicture P.text s c us vs shapes ∧ s' = { s with layer := draw s.layer shapes } := by
  have hcfg : ∀ c, labelsConfigure P s args = .ok c → databufLen c.x = databufLen c.y := by
    intro c hc
    obtain ⟨o, hm, x, y, ⟨u, h1, h2⟩, rfl⟩ := configured_ok (C90_labels P s hp args) hc
    exact h2
  unfold labelsCmd
  rw [withConfig_iff]
  constructor
  · rintro ⟨c, hc, h⟩
    have hlen := hcfg c hc
    rw [labelsRender_iff] at h
    obtain ⟨us, vs, hx, hy, h⟩ := h
    have hl : us.length = vs.length := by rw [positions_length hx, positions_length hy, hlen]
    by_cases hlab : c.labels.length ≤ us.length
    · rw [C63_labels_mirrored s.clip _ _ us vs hl hlab, renderOps?_some hT] at h
      obtain ⟨shapes, h1, h2⟩ := h
      refine ⟨c, us, vs, shapes, hc, hx, hy, hl, hlab, ?_, h2⟩
      rw [labelsPicture_eq]; exact h1
    · unfold labelsDraw at h
      rw [labels_none c.labels us vs hlab fun i t x y => (PlotOp.text t ⟨s.clip.x + x * s.clip.w, s.clip.y + (1 - y) * s.clip.h -
        (measureOr c.labelPadding ⟨.unit, unitFromEm 0.8 c.labelFontSize⟩).value⟩ .center .bottom : PlotOp Marker Color)] at h
      exact absurd h renderOps?_none
  · rintro ⟨c, us, vs, shapes, hc, hx, hy, hl, hlab, h1, h2⟩
    refine ⟨c, hc, ?_⟩
    rw [labelsRender_iff]
    refine ⟨us, vs, hx, hy, ?_⟩
    rw [C63_labels_mirrored s.clip _ _ us vs hl hlab, renderOps?_some hT]
    rw [labelsPicture_eq] at h1
    exact ⟨shapes, h1, h2⟩

end
end Clip
