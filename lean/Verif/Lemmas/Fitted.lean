import Verif.Spec.WholePlot
import Verif.Props.ElementPictures
set_option linter.unusedSimpArgs false
/-!
# Automatic limits
-/
namespace Clip
open Elements Whole
variable {φ : Type}

/-- A lower limit and another number. -/
noncomputable def minStep (old : Option ℝ) (v : ℝ) : Option ℝ := some (old.elim v fun m => min m v)
/-- An upper limit and another number. -/
noncomputable def maxStep (old : Option ℝ) (v : ℝ) : Option ℝ := some (old.elim v fun m => max m v)

theorem fitHints_step (h : LimitHints ℝ) (v : ℝ) :
    fitHints (fun x y : ℝ => decide (x > y)) h v = ⟨minStep h.minValue v, maxStep h.maxValue v⟩ := by
  obtain ⟨a, b⟩ := h
  have h1 : ∀ m : ℝ, (if m > v then some v else some m) = some (min m v) := by
    intro m
    by_cases hm : m > v
    · rw [if_pos hm, min_eq_right hm.le]
    · rw [if_neg hm, min_eq_left (not_lt.1 hm)]
  have h2 : ∀ m : ℝ, (if v > m then some v else some m) = some (max m v) := by
    intro m
    by_cases hm : v > m
    · rw [if_pos hm, max_eq_right hm.le]
    · rw [if_neg hm, max_eq_left (not_lt.1 hm)]
  unfold fitHints minStep maxStep
  cases a with
  | none =>
    cases b with
    | none => simp
    | some M => 
      simp only [Option.elim, decide_eq_true_eq]
      rw [← h2]
      split <;> rfl
  | some m =>
    simp only [Option.elim, decide_eq_true_eq]
    rw [← h1]
    cases b with
    | none => by_cases hm : m > v <;> simp [hm]
    | some M =>
      simp only [Option.elim, decide_eq_true_eq]
      rw [← h2]
      by_cases hm : m > v <;> by_cases hM : v > M <;> simp [hm, hM]

theorem fold_hints (xs : List ℝ) (sc : Scale) : xs.foldl scaleFit sc =
    { sc with hints := ⟨xs.foldl minStep sc.hints.minValue, xs.foldl maxStep sc.hints.maxValue⟩ } := by
  induction xs generalizing sc with
  | nil => rfl
  | cons v xs ih =>
    rw [List.foldl_cons, ih]
    unfold scaleFit
    rw [fitHints_step]
    rfl

theorem best_min (xs : List ℝ) (old : Option ℝ) : Best IsLeast old xs (xs.foldl minStep old) := by
  induction xs generalizing old with
  | nil =>
    cases old with
    | none => exact .inl ⟨rfl, rfl, rfl⟩
    | some m =>
      refine .inr ⟨m, rfl, .inl rfl, ?_⟩
      rintro x (h | h)
      · cases h; exact le_rfl
      · cases h
  | cons v xs ih =>
    rcases ih (minStep old v) with ⟨h, -, -⟩ | ⟨m, h1, h2, h3⟩
    · cases h
    · refine .inr ⟨m, h1, ?_, ?_⟩
      · rcases h2 with h2 | h2
        · cases old with
          | none =>
            cases h2
            exact .inr (.head _)
          | some o =>
            cases h2
            simp only [Option.elim]
            rcases min_choice o v with e | e <;> rw [e]
            · exact .inl rfl
            · exact .inr (.head _)
        · exact .inr (.tail _ h2)
      · have hm : m ≤ old.elim v fun o => min o v := h3 (.inl rfl)
        rintro x (h | h)
        · cases h
          exact hm.trans (min_le_left _ _)
        · rcases List.mem_cons.1 h with rfl | h
          · cases old with
            | none => exact hm
            | some o => exact hm.trans (min_le_right _ _)
          · exact h3 (.inr h)

theorem best_max (xs : List ℝ) (old : Option ℝ) : Best IsGreatest old xs (xs.foldl maxStep old) := by
  induction xs generalizing old with
  | nil =>
    cases old with
    | none => exact .inl ⟨rfl, rfl, rfl⟩
    | some m =>
      refine .inr ⟨m, rfl, .inl rfl, ?_⟩
      rintro x (h | h)
      · cases h; exact le_rfl
      · cases h
  | cons v xs ih =>
    rcases ih (maxStep old v) with ⟨h, -, -⟩ | ⟨m, h1, h2, h3⟩
    · cases h
    · refine .inr ⟨m, h1, ?_, ?_⟩
      · rcases h2 with h2 | h2
        · cases old with
          | none =>
            cases h2
            exact .inr (.head _)
          | some o =>
            cases h2
            simp only [Option.elim]
            rcases max_choice o v with e | e <;> rw [e]
            · exact .inl rfl
            · exact .inr (.head _)
        · exact .inr (.tail _ h2)
      · have hm : (old.elim v fun o => max o v) ≤ m := h3 (.inl rfl)
        rintro x (h | h)
        · cases h
          exact (le_max_left _ _).trans hm
        · rcases List.mem_cons.1 h with rfl | h
          · cases old with
            | none => exact hm
            | some o => exact (le_max_right _ _).trans hm
          · exact h3 (.inr h)

theorem best_unique {Is : Set ℝ → ℝ → Prop} (hI : ∀ S a b, Is S a → Is S b → a = b) (hS : ∀ S a, Is S a → a ∈ S)
    {old new new' : Option ℝ} {xs : List ℝ} (h : Best Is old xs new) (h' : Best Is old xs new') : new = new' := by
  have none_of : old = none → xs = [] → ∀ m, ¬ Is ({x | old = some x} ∪ {x | x ∈ xs}) m := by
    rintro rfl rfl m hm
    rcases hS _ _ hm with h | h
    · cases h
    · cases h
  rcases h with ⟨h1, h2, h3⟩ | ⟨m, h1, h2⟩ <;> rcases h' with ⟨h1', h2', h3'⟩ | ⟨m', h1', h2'⟩
  · rw [h3, h3']
  · exact absurd h2' (none_of h1 h2 _)
  · exact absurd h2 (none_of h1' h2' _)
  · rw [h1, h1', hI _ _ _ h2 h2']

/-- The automatic limits after fitting are the extended ones. -/
theorem extended_iff (h h' : LimitHints ℝ) (xs : List ℝ) :
    Extended h xs h' ↔ h' = ⟨xs.foldl minStep h.minValue, xs.foldl maxStep h.maxValue⟩ := by
  constructor
  · rintro ⟨h1, h2⟩
    have e1 := best_unique (Is := IsLeast) (fun _ _ _ h h' => IsLeast.unique h h') (fun _ _ h => h.1) h1 (best_min xs h.minValue)
    have e2 := best_unique (Is := IsGreatest) (fun _ _ _ h h' => IsGreatest.unique h h') (fun _ _ h => h.1) h2 (best_max xs h.maxValue)
    rw [← e1, ← e2]
  · rintro rfl
    exact ⟨best_min _ _, best_max _ _⟩

theorem extended_fold (sc sc' : Scale) (xs : List ℝ) :
    (∃ h, Extended sc.hints xs h ∧ sc' = { sc with hints := h }) ↔ sc' = xs.foldl scaleFit sc := by
  rw [fold_hints]
  constructor
  · rintro ⟨h, h1, rfl⟩
    rw [(extended_iff _ _ _).1 h1]
  · rintro rfl
    exact ⟨_, (extended_iff _ _ _).2 rfl, rfl⟩

theorem fold_kind (xs : List ℝ) (sc : Scale) : (xs.foldl scaleFit sc).kind = sc.kind ∧
    (xs.foldl scaleFit sc).categoriesMap = sc.categoriesMap := by
  rw [fold_hints]
  exact ⟨rfl, rfl⟩

theorem counts_congr {P : PlotEnv φ} {sc sc' : Scale} (h : sc'.kind = sc.kind) (h' : sc'.categoriesMap = sc.categoriesMap) :
    Counts P sc' = Counts P sc := by
  funext b xs
  unfold Counts CountsAs
  rw [h, h']

/-- The numbers that are fitted. -/
theorem scaleFitBuf_iff (P : PlotEnv φ) (b : DataBuffer (Option ℝ)) (sc sc' : Scale) :
    scaleFitBuf P.toS P.parse b sc = (sc', none) ↔ ∃ xs, Counts P sc b xs ∧ sc' = xs.foldl scaleFit sc := by
  have key : ∀ xs, (∃ vs, fitNumbers P.toS P.parse sc b = .ok vs ∧ vs.mapM id = some xs) ↔ Counts P sc b xs := by
    intro xs
    unfold Counts HasValues
    rw [forall2_comp]
    by_cases hk : sc.kind = .categorical
    · have e : (∃ vs, fitNumbers P.toS P.parse sc b = .ok vs ∧ vs.mapM id = some xs) ↔
          ∃ ts is, databufToText P.toS b = some ts ∧ mapCategories sc ts = .ok is ∧ xs = is.map fun i : ℕ => (i : ℝ) := by
        unfold fitNumbers
        rw [hk]
        simp only
        cases h1 : databufToText P.toS b with
        | none => simp
        | some ts =>
          simp only
          cases h2 : mapCategories sc ts with
          | ok is =>
            have h3 : (is.map fun i : ℕ => some (i : ℝ)).mapM id = some xs ↔ xs = is.map fun i : ℕ => (i : ℝ) := by
              rw [mapM_id_forall2, List.forall₂_map_left_iff]
              constructor
              · intro h
                clear h2
                induction h with
                | nil => rfl
                | cons h _ ih => cases h; rw [ih]; rfl
              · rintro rfl
                rw [List.forall₂_map_right_iff]
                exact List.forall₂_same.2 fun _ _ => rfl
            constructor
            · rintro ⟨vs, h4, h5⟩
              cases h4
              exact ⟨ts, is, rfl, h2, h3.1 h5⟩
            · rintro ⟨ts', is', h4, h5, h6⟩
              cases h4
              rw [h2] at h5
              cases h5
              exact ⟨_, rfl, h3.2 h6⟩
          | error e => simp [h2]
          | thrown => simp [h2]
          | undefined => simp [h2]
      rw [e]
      clear e
      unfold databufToText
      generalize b.index = index
      induction index generalizing xs with
      | nil =>
        rw [List.forall₂_nil_left_iff]
        constructor
        · rintro ⟨ts, is, h1, h2, rfl⟩
          cases h1
          cases h2
          rfl
        · rintro rfl
          exact ⟨[], [], rfl, rfl, rfl⟩
      | cons i index ih =>
        obtain ⟨k, j⟩ := i
        have head : ∀ t (n : ℕ), (if k = true then (b.numeric[j]?).map P.toS else b.text[j]?) = some t →
            sc.categoriesMap t = some n → ∃ v, ((k = true ∧ ∃ x, b.numeric[j]? = some x ∧ v = .number x) ∨
              (k = false ∧ ∃ t, b.text[j]? = some t ∧ v = .text t)) ∧ CountsAs P sc v n := by
          intro t n h1 h2
          cases k with
          | true =>
            rw [if_pos rfl] at h1
            obtain ⟨x, h3, rfl⟩ := Option.map_eq_some_iff.1 h1
            exact ⟨.number x, .inl ⟨rfl, x, h3, rfl⟩, .inr ⟨hk, n, h2, rfl⟩⟩
          | false =>
            rw [if_neg (by simp)] at h1
            exact ⟨.text t, .inr ⟨rfl, t, h1, rfl⟩, .inr ⟨hk, n, h2, rfl⟩⟩
        have back : ∀ x v, ((k = true ∧ ∃ x, b.numeric[j]? = some x ∧ v = Datum.number x) ∨
              (k = false ∧ ∃ t, b.text[j]? = some t ∧ v = .text t)) → CountsAs P sc v x →
            ∃ t, ∃ n : ℕ, (if k = true then (b.numeric[j]?).map P.toS else b.text[j]?) = some t ∧
              sc.categoriesMap t = some n ∧ x = n := by
          rintro x v h1 (⟨h2, -⟩ | ⟨-, n, h2, rfl⟩)
          · exact absurd hk h2
          · rcases h1 with ⟨rfl, y, h3, rfl⟩ | ⟨rfl, t, h3, rfl⟩
            · exact ⟨_, n, by rw [if_pos rfl, h3]; rfl, h2, rfl⟩
            · exact ⟨_, n, by rw [if_neg (by simp), h3]; rfl, h2, rfl⟩
        have hcons : ∀ {α β : Type} (f : α → Option β) a l r, (a :: l).mapM f = some r ↔
            ∃ b rs, f a = some b ∧ l.mapM f = some rs ∧ r = b :: rs := by
          intro α β f a l r
          rw [mapM_forall2]
          constructor
          · intro h
            cases h with
            | cons h1 h2 => exact ⟨_, _, h1, (mapM_forall2 _ _ _).2 h2, rfl⟩
          · rintro ⟨b, rs, h1, h2, rfl⟩
            exact .cons h1 ((mapM_forall2 _ _ _).1 h2)
        constructor
        · rintro ⟨ts, is, h1, h2, rfl⟩
          obtain ⟨t, ts', h3, h4, rfl⟩ := (hcons _ _ _ _).1 h1
          rw [mapCategories_iff] at h2
          cases h2 with
          | cons h5 h6 =>
            refine .cons (head _ _ h3 h5) ((ih _).1 ⟨ts', _, h4, (mapCategories_iff _ _ _).2 h6, rfl⟩)
        · intro h
          cases h with
          | cons h1 h2 =>
            obtain ⟨v, h3, h4⟩ := h1
            obtain ⟨t, n, h5, h6, rfl⟩ := back _ _ h3 h4
            obtain ⟨ts, is, h7, h8, rfl⟩ := (ih _).2 h2
            exact ⟨t :: ts, n :: is, (hcons _ _ _ _).2 ⟨t, ts, h5, h7, rfl⟩,
              (mapCategories_iff _ _ _).2 (.cons h6 ((mapCategories_iff _ _ _).1 h8)), rfl⟩
    · have e : (∃ vs, fitNumbers P.toS P.parse sc b = .ok vs ∧ vs.mapM id = some xs) ↔
          ∃ vs, databufToNumbers P.parse b = some vs ∧ vs.mapM id = some xs := by
        have h0 : fitNumbers P.toS P.parse sc b = match databufToNumbers P.parse b with
            | none => .error .undefined
            | some vs => .ok vs := by
          unfold fitNumbers
          cases h : sc.kind with
          | categorical => exact absurd h hk
          | linear => rfl
          | logarithmic => rfl
        rw [h0]
        cases databufToNumbers P.parse b with
        | none => simp
        | some vs => simp
      rw [e]
      unfold databufToNumbers
      simp only [mapM_forall2, mapM_id_forall2]
      rw [forall2_comp]
      refine forall2_congr fun i x => ?_
      obtain ⟨k, j⟩ := i
      unfold CountsAs
      cases k with
      | true =>
        simp only [if_true, true_and, Bool.true_eq_false, false_and, or_false]
        constructor
        · rintro ⟨v, h1, rfl⟩
          exact ⟨_, ⟨_, h1, rfl⟩, .inl ⟨hk, .inl rfl⟩⟩
        · rintro ⟨v, ⟨y, h1, rfl⟩, ⟨-, h2 | ⟨t, h2, -⟩⟩ | ⟨h2, -⟩⟩
          · cases h2; exact ⟨_, h1, rfl⟩
          · cases h2
          · exact absurd h2 hk
      | false =>
        simp only [Bool.false_eq_true, if_false, false_and, false_or, true_and, Option.map_eq_some_iff]
        constructor
        · rintro ⟨v, ⟨t, h1, h2⟩, rfl⟩
          exact ⟨_, ⟨t, h1, rfl⟩, .inl ⟨hk, .inr ⟨t, rfl, h2⟩⟩⟩
        · rintro ⟨v, ⟨t, h1, rfl⟩, ⟨-, h2 | ⟨t', h2, h3⟩⟩ | ⟨h2, -⟩⟩
          · cases h2
          · cases h2; exact ⟨_, ⟨t, h1, h3⟩, rfl⟩
          · exact absurd h2 hk
  have run : scaleFitBuf P.toS P.parse b sc = (sc', none) ↔
      ∃ xs, (∃ vs, fitNumbers P.toS P.parse sc b = .ok vs ∧ vs.mapM id = some xs) ∧ sc' = xs.foldl scaleFit sc := by
    unfold scaleFitBuf
    cases h1 : fitNumbers P.toS P.parse sc b with
    | error f => simp
    | ok vs =>
      simp only [Except.ok.injEq, exists_eq_left']
      cases h2 : vs.mapM id with
      | none => simp
      | some ns => simp [eq_comm]
  rw [run]
  exact exists_congr fun xs => and_congr_left fun _ => key xs

end Clip
