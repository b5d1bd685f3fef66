import Verif.Props.DrawModule
import Verif.Props.Eval
set_option linter.unusedSimpArgs false
/-! Property theorems C86 (document settings). -/
namespace Clip
open Commands Settings Drawing Pictures
variable {φ : Type}

theorem measureText_iff (stod : Str → Option (ℝ × Nat)) (s : Str) (m : Measure) :
    parseMeasure stod s = .ok m ↔ MeasureText stod s m := by
  unfold parseMeasure MeasureText
  cases h : stod s with
  | none => simp
  | some r =>
    obtain ⟨v, pos⟩ := r
    simp only [Option.some.injEq, Prod.mk.injEq]
    constructor
    · intro h
      refine ⟨v, pos, ⟨rfl, rfl⟩, ?_⟩
      split at h
      · cases h; exact .inl ⟨by assumption, rfl⟩
      · rename_i hne
        refine .inr ⟨hne, ?_⟩
        split at h
        · cases h; exact ⟨"mm", .mm, 1, by simp [measureUnits], by assumption, by simp⟩
        split at h
        · cases h; exact ⟨"px", .px, 1, by simp [measureUnits], by assumption, by simp⟩
        split at h
        · cases h; exact ⟨"pt", .pt, 1, by simp [measureUnits], by assumption, by simp⟩
        split at h
        · rename_i hu
          cases h
          rcases hu with hu | hu
          · exact ⟨"em", .rem, 1, by simp [measureUnits], hu, by simp⟩
          · exact ⟨"rem", .rem, 1, by simp [measureUnits], hu, by simp⟩
        split at h
        · cases h; exact ⟨"%", .rel, 1 / 100, by simp [measureUnits], by assumption, by simp [div_eq_mul_inv]⟩
        split at h
        · cases h; exact ⟨"rel", .rel, 1, by simp [measureUnits], by assumption, by simp⟩
        · cases h
    · rintro ⟨v', pos', ⟨rfl, rfl⟩, ⟨h1, rfl⟩ | ⟨hne, u, unit, k, hu, hd, rfl⟩⟩
      · rw [if_pos h1]
      · rw [if_neg hne, hd]
        simp only [measureUnits, List.mem_cons, Prod.mk.injEq, List.not_mem_nil, or_false] at hu
        rcases hu with ⟨rfl, rfl, rfl⟩ | ⟨rfl, rfl, rfl⟩ | ⟨rfl, rfl, rfl⟩ | ⟨rfl, rfl, rfl⟩ | ⟨rfl, rfl, rfl⟩ | ⟨rfl, rfl, rfl⟩ |
          ⟨rfl, rfl, rfl⟩ <;> simp [div_eq_mul_inv]

theorem isText_one (a : Expr) (t : Str) : IsText [a] t ↔ a.isValue = true ∧ a.getValue = t := by
  rw [← isText_iff]
  unfold exprToString
  cases a <;> simp [Expr.isValue, Expr.getValue]

theorem paper_lookup (name : Str) (w h : Nat) : (name, w, h) ∈ paperSizes ↔ paperSizes.lookup name = some (w, h) := by
  have hnd : (paperSizes.map (·.1)).Nodup := by decide
  have key : ∀ t : List (Str × Nat × Nat), (t.map (·.1)).Nodup →
      ((name, w, h) ∈ t ↔ t.lookup name = some (w, h)) := by
    intro t
    induction t with
    | nil => simp
    | cons p t ih =>
      obtain ⟨n, x⟩ := p
      intro hnd
      rw [List.map_cons, List.nodup_cons] at hnd
      rw [List.lookup_cons]
      by_cases he : name = n
      · subst he
        have : (name, w, h) ∉ t := fun hm => hnd.1 (List.mem_map.2 ⟨_, hm, rfl⟩)
        simp [this, eq_comm]
      · have : (name == n) = false := by simpa using he
        rw [this, ← ih hnd.2]
        simp [he]
  exact key _ hnd

theorem isSheet_iff (stod : Str → Option (ℝ × Nat)) (l : LayerSize) (args : List Expr) (l' : LayerSize) :
    layerResizeCmd stod l args = .ok l' ↔ ∃ w h, IsSheet stod args (w, h) ∧ l' = { l with width := w, height := h } := by
  match args with
  | [] => simp only [layerResizeCmd]; constructor
          · intro h; cases h
          · rintro ⟨_, _, h, _⟩; cases h
  | [a] =>
    simp only [layerResizeCmd, layerResizeNamed]
    constructor
    · intro h
      split at h
      · cases h
      · rename_i w ht hl
        cases h
        have hv : a.isValue = true := by
          cases a with
          | list l =>
                   exfalso; have e : paperSizes.lookup (Expr.list l).getValue = none := by
                     show paperSizes.lookup [] = none; decide
                   rw [e] at hl; cases hl
          | literal s => rfl
          | value s => rfl
        exact ⟨_, _, .paper ((isText_one _ _).2 ⟨hv, rfl⟩) ((paper_lookup _ _ _).2 hl), rfl⟩
    · rintro ⟨w, h, hs, rfl⟩
      cases hs with
      | paper h1 h2 =>
        rw [((isText_one _ _).1 h1).2, (paper_lookup _ _ _).1 h2]
  | [a, b] =>
    simp only [layerResizeCmd]
    constructor
    · intro h
      split at h
      · cases h
      · rename_i hv
        simp only [Bool.or_eq_true, Bool.not_eq_true', not_or, Bool.not_eq_false] at hv
        split at h
        · cases h
        · rename_i w hw
          split at h
          · cases h
          · rename_i ht hh
            cases h
            exact ⟨w, ht, .size ((isText_one _ _).2 ⟨hv.1, rfl⟩) ((isText_one _ _).2 ⟨hv.2, rfl⟩)
              ((measureText_iff _ _ _).1 hw) ((measureText_iff _ _ _).1 hh), rfl⟩
    · rintro ⟨w, h, hs, rfl⟩
      cases hs with
      | size h1 h2 h3 h4 =>
        obtain ⟨v1, rfl⟩ := (isText_one _ _).1 h1
        obtain ⟨v2, rfl⟩ := (isText_one _ _).1 h2
        rw [(measureText_iff _ _ _).2 h3, (measureText_iff _ _ _).2 h4]
        simp [v1, v2]
  | a :: b :: c :: r => simp only [layerResizeCmd]; constructor
                        · intro h; cases h
                        · rintro ⟨_, _, h, _⟩; cases h

theorem isSheet_unique {stod : Str → Option (ℝ × Nat)} {args : List Expr} {a b : Measure × Measure}
    (h : IsSheet stod args a) (h' : IsSheet stod args b) : a = b := by
  have h1 := (isSheet_iff stod defaultLayer args _).2 ⟨a.1, a.2, h, rfl⟩
  rw [(isSheet_iff stod defaultLayer args _).2 ⟨b.1, b.2, h', rfl⟩] at h1
  simp only [Except.ok.injEq, LayerSize.mk.injEq] at h1
  exact Prod.ext h1.1.symm h1.2.1.symm

theorem isDpi_unique {stod : Str → Option (ℝ × Nat)} {args : List Expr} {a b : ℝ}
    (h : IsDpi stod args a) (h' : IsDpi stod args b) : a = b := by
  obtain ⟨x, rfl, h1⟩ := h
  obtain ⟨y, e, h2⟩ := h'
  cases e
  rw [h1] at h2; cases h2; rfl

theorem isFontSize_unique {stod : Str → Option (ℝ × Nat)} {args : List Expr} {a b : Measure}
    (h : IsFontSize stod args a) (h' : IsFontSize stod args b) : a = b := by
  obtain ⟨x, s, rfl, h1, h2⟩ := h
  obtain ⟨y, t, e, h3, h4⟩ := h'
  cases e
  rw [isText_unique h1 h3, ← measureText_iff] at h2
  rw [← measureText_iff, h2] at h4
  cases h4; rfl

theorem isFontName_unique {l : Str → Option φ} {args : List Expr} {a b : φ}
    (h : IsFontName l args a) (h' : IsFontName l args b) : a = b := by
  obtain ⟨x, s, rfl, h1, h2⟩ := h
  obtain ⟨y, t, e, h3, h4⟩ := h'
  cases e
  rw [isText_unique h1 h3] at h2
  rw [h2] at h4
  cases h4; rfl

theorem setDpi_ok (stod : Str → Option (ℝ × Nat)) (args : List Expr) (L L' : Layer φ) :
    setDpi stod args L = (L', none) ↔ ∃ v, IsDpi stod args v ∧ L' = { L with size := { L.size with dpi := v } } := by
  unfold setDpi
  match args with
  | [] => simp [IsDpi]
  | [a] =>
    simp only
    constructor
    · intro h
      split at h
      · rename_i v hv
        cases h
        obtain ⟨e, r, h1, h2⟩ := readFloat_ok.1 hv
        cases h1
        exact ⟨v, ⟨_, rfl, h2⟩, rfl⟩
      · cases h
    · rintro ⟨v, ⟨e, h1, h2⟩, rfl⟩
      cases h1
      rw [(readFloat_ok (E := L.env stod)).2 ⟨_, _, rfl, h2⟩]
  | a :: b :: r => simp [IsDpi]

theorem setFont_ok (T : TextEnv φ) (args : List Expr) (L L' : Layer φ) :
    setFont T args L = (L', none) ↔ ∃ f, IsFontName T.loadFont args f ∧ L' = { L with fonts := f :: L.fonts } := by
  unfold setFont
  match args with
  | [] => simp [IsFontName]
  | [a] =>
    cases h : exprToString [a] with
    | none => simp [IsFontName, ← isText_iff, h]
    | some t => cases hl : T.loadFont t <;> simp [IsFontName, ← isText_iff, h, hl, eq_comm]
  | a :: b :: r => simp [IsFontName]

theorem setFontSize_ok (stod : Str → Option (ℝ × Nat)) (args : List Expr) (L L' : Layer φ) :
    setFontSize stod args L = (L', none) ↔
      ∃ v, IsFontSize stod args v ∧ L' = { L with size := { L.size with fontSize := v } } := by
  unfold setFontSize
  match args with
  | [] => simp [IsFontSize]
  | [a] =>
    simp only
    constructor
    · intro h
      split at h
      · rename_i hv
        split at h
        · rename_i m hm
          cases h
          exact ⟨m, ⟨a, _, rfl, (isText_one _ _).2 ⟨hv, rfl⟩, (measureText_iff _ _ _).1 hm⟩, rfl⟩
        · cases h
      · cases h
    · rintro ⟨v, ⟨e, s, h1, h2, h3⟩, rfl⟩
      cases h1
      obtain ⟨hv, rfl⟩ := (isText_one _ _).1 h2
      rw [if_pos hv, (measureText_iff _ _ _).2 h3]
  | a :: b :: r => simp [IsFontSize]

theorem setSize_ok (stod : Str → Option (ℝ × Nat)) (args : List Expr) (L L' : Layer φ) :
    setSize stod args L = (L', none) ↔
      ∃ v, IsSheet stod args v ∧ L' = { L with size := { L.size with width := v.1, height := v.2 } } := by
  unfold setSize
  constructor
  · intro h
    split at h
    · rename_i s hs
      cases h
      obtain ⟨w, ht, h1, rfl⟩ := (isSheet_iff _ _ _ _).1 hs
      exact ⟨(w, ht), h1, rfl⟩
    · cases h
  · rintro ⟨v, h, rfl⟩
    rw [(isSheet_iff stod L.size args _).2 ⟨v.1, v.2, h, rfl⟩]

section
variable {T : TextEnv φ} {stod : Str → Option (ℝ × Nat)}

theorem docSettings_at : docSettings T stod "size".toList = some (setSize stod) ∧
    docSettings T stod "dpi".toList = some (setDpi stod) ∧ docSettings T stod "font".toList = some (setFont T) ∧
    docSettings T stod "font-size".toList = some (setFontSize stod) := by
  refine ⟨?_, ?_, ?_, ?_⟩ <;> unfold docSettings
  · rw [if_pos (by decide)]
  · rw [if_neg (by decide), if_pos (by decide)]
  · rw [if_neg (by decide), if_neg (by decide), if_pos (by decide)]
  · rw [if_neg (by decide), if_neg (by decide), if_neg (by decide), if_pos (by decide)]

/-- What a successful setting does. -/
theorem docTable_step {n : Str} {h : Handler (Layer φ × Str) (Option Fail)} {args : List Expr} {s s₁ : Layer φ × Str}
    (hf : evalTable (docSettings T stod) n = some h) (hr : h args s = (s₁, none)) :
    (n = "class".toList ∧ ∃ v, IsText args v ∧ s₁ = (s.1, v)) ∨
    (n = "size".toList ∧ ∃ v, IsSheet stod args v ∧ s₁ = ({ s.1 with size := { s.1.size with width := v.1, height := v.2 } }, s.2)) ∨
    (n = "dpi".toList ∧ ∃ v, IsDpi stod args v ∧ s₁ = ({ s.1 with size := { s.1.size with dpi := v } }, s.2)) ∨
    (n = "font".toList ∧ ∃ v, IsFontName T.loadFont args v ∧ s₁ = ({ s.1 with fonts := v :: s.1.fonts }, s.2)) ∨
    (n = "font-size".toList ∧ ∃ v, IsFontSize stod args v ∧ s₁ = ({ s.1 with size := { s.1.size with fontSize := v } }, s.2)) := by
  have lift : ∀ (k : Handler (Layer φ) Fail), docSettings T stod n = some k → n ≠ "class".toList →
      k args s.1 = (s₁.1, none) ∧ s₁.2 = s.2 := by
    intro k hk hc
    unfold evalTable at hf
    rw [if_neg hc] at hf
    split at hf
    · rw [hk, Option.map_some, Option.some.injEq] at hf
      subst hf
      simp only at hr
      split at hr
      · rename_i c hc; cases hr; exact ⟨hc, rfl⟩
      · cases hr
    · cases hf
  unfold evalTable at hf
  split at hf
  · rename_i hn
    cases hf
    simp only at hr
    split at hr
    · rename_i m hm; cases hr; exact .inl ⟨hn, m, (isText_iff _ _).1 hm, rfl⟩
    · cases hr
  split at hf
  · rename_i hn
    rcases hn with rfl | rfl | rfl | rfl
    · obtain ⟨h1, h2⟩ := lift (setSize stod) docSettings_at.1 (by decide)
      obtain ⟨v, hv, e⟩ := (setSize_ok _ _ _ _).1 h1
      exact .inr (.inl ⟨rfl, v, hv, Prod.ext e h2⟩)
    · obtain ⟨h1, h2⟩ := lift (setDpi stod) docSettings_at.2.1 (by decide)
      obtain ⟨v, hv, e⟩ := (setDpi_ok _ _ _ _).1 h1
      exact .inr (.inr (.inl ⟨rfl, v, hv, Prod.ext e h2⟩))
    · obtain ⟨h1, h2⟩ := lift (setFont T) docSettings_at.2.2.1 (by decide)
      obtain ⟨v, hv, e⟩ := (setFont_ok _ _ _ _).1 h1
      exact .inr (.inr (.inr (.inl ⟨rfl, v, hv, Prod.ext e h2⟩)))
    · obtain ⟨h1, h2⟩ := lift (setFontSize stod) docSettings_at.2.2.2 (by decide)
      obtain ⟨v, hv, e⟩ := (setFontSize_ok _ _ _ _).1 h1
      exact .inr (.inr (.inr (.inr ⟨rfl, v, hv, Prod.ext e h2⟩)))
  · cases hf

/-- The page after executed settings. -/
theorem page_executed {set : List Expr} {s s' : Layer φ × Str}
    (he : Executed (evalTable (docSettings T stod)) set s s') :
    Final IsText "class".toList set s.2 s'.2 ∧
    Final (IsSheet stod) "size".toList set (s.1.size.width, s.1.size.height) (s'.1.size.width, s'.1.size.height) ∧
    Final (IsDpi stod) "dpi".toList set s.1.size.dpi s'.1.size.dpi ∧
    Final (IsFontSize stod) "font-size".toList set s.1.size.fontSize s'.1.size.fontSize ∧
    (∃ own, List.Forall₂ (IsFontName T.loadFont) (allArgs "font".toList set) own ∧ s'.1.fonts = own.reverse ++ s.1.fonts) ∧
    s'.1.background = s.1.background ∧ s'.1.palette = s.1.palette ∧ s'.1.defaultStyle = s.1.defaultStyle ∧
    s'.1.drawlist = s.1.drawlist := by
  have step : ∀ n h args s s₁, evalTable (docSettings T stod) n = some h → h args s = (s₁, none) → _ :=
    fun n h args s s₁ hf hr => docTable_step (args := args) (s := s) (s₁ := s₁) hf hr
  have keep : ∀ {α : Type} (get : Layer φ × Str → α),
      (∀ (L : Layer φ) m sz f, get ({ L with size := sz, fonts := f }, m) = get (L, [])) → get s' = get s := by
    intro α get hg
    have hg' : ∀ s : Layer φ × Str, get s = get (s.1, []) := by
      rintro ⟨L, m⟩
      have := hg L m L.size L.fonts
      exact this
    refine executed_accum (get := get) (R := fun _ before after => after = before) (fun _ => rfl) ?_ he
    rintro n h args rest s s₁ b hf hr rfl e _ _
    rw [hg' s]
    rcases step n h args s s₁ hf hr with ⟨_, v, _, rfl⟩ | ⟨_, v, _, rfl⟩ | ⟨_, v, _, rfl⟩ | ⟨_, v, _, rfl⟩ | ⟨_, v, _, rfl⟩
    · exact hg s.1 v s.1.size s.1.fonts
    · exact hg s.1 s.2 { s.1.size with width := v.1, height := v.2 } s.1.fonts
    · exact hg s.1 s.2 { s.1.size with dpi := v } s.1.fonts
    · exact hg s.1 s.2 s.1.size (v :: s.1.fonts)
    · exact hg s.1 s.2 { s.1.size with fontSize := v } s.1.fonts
  refine ⟨executed_final (get := (·.2)) ?_ ?_ he, executed_final (get := fun s => (s.1.size.width, s.1.size.height)) ?_ ?_ he,
    executed_final (get := (·.1.size.dpi)) ?_ ?_ he, executed_final (get := (·.1.size.fontSize)) ?_ ?_ he, ?_,
    keep (·.1.background) ?_, keep (·.1.palette) ?_, keep (·.1.defaultStyle) ?_, keep (·.1.drawlist) ?_⟩
  case refine_9 =>
    refine executed_accum (get := (·.1.fonts)) (R := fun cmds before after =>
      ∃ own, List.Forall₂ (IsFontName T.loadFont) (allArgs "font".toList cmds) own ∧ after = own.reverse ++ before) ?_ ?_ he
    · intro a; exact ⟨[], .nil, rfl⟩
    · rintro n h args rest s s₁ a hf hr ⟨own, ho, rfl⟩ e he rfl
      have hname := nameOf_isValue he args
      rcases step _ h args s s₁ hf hr with ⟨w, v, hv, rfl⟩ | ⟨w, v, hv, rfl⟩ | ⟨w, v, hv, rfl⟩ | ⟨w, v, hv, rfl⟩ | ⟨w, v, hv, rfl⟩
      case inr.inr.inr.inl =>
        refine ⟨v :: own, ?_, by simp⟩
        unfold allArgs
        rw [List.filter_cons_of_pos (by rw [hname, w]; decide)]
        exact .cons hv ho
      all_goals
        refine ⟨own, ?_, rfl⟩
        unfold allArgs
        rw [List.filter_cons_of_neg (by rw [hname, w]; decide)]
        exact ho
  all_goals
    first
    | (intro h args s s₁ hf hr
       rcases step _ h args s s₁ hf hr with ⟨w, v, hv, rfl⟩ | ⟨w, v, hv, rfl⟩ | ⟨w, v, hv, rfl⟩ | ⟨w, v, hv, rfl⟩ | ⟨w, v, hv, rfl⟩
         <;> first | exact absurd w (by decide) | exact hv)
    | (intro n h args s s₁ hne hf hr
       rcases step _ h args s s₁ hf hr with ⟨w, v, hv, rfl⟩ | ⟨w, v, hv, rfl⟩ | ⟨w, v, hv, rfl⟩ | ⟨w, v, hv, rfl⟩ | ⟨w, v, hv, rfl⟩
         <;> first | rfl | exact absurd w hne)
    | (intros; rfl)

theorem page_accept (set : List Expr) (s : Layer φ × Str) :
    (∃ s', Executed (evalTable (docSettings T stod)) set s s') ↔ ∀ c ∈ set, ∃ n, nameOf c = some n ∧
    ((n = "class".toList ∧ ∃ t, IsText (argsOf c) t) ∨ (n = "size".toList ∧ ∃ v, IsSheet stod (argsOf c) v) ∨
      (n = "dpi".toList ∧ ∃ v, IsDpi stod (argsOf c) v) ∨ (n = "font".toList ∧ ∃ f, IsFontName T.loadFont (argsOf c) f) ∨
      (n = "font-size".toList ∧ ∃ v, IsFontSize stod (argsOf c) v)) := by
  refine executed_iff_all (ok := fun n args => (n = "class".toList ∧ ∃ t, IsText args t) ∨ (n = "size".toList ∧ ∃ v, IsSheet stod args v) ∨
      (n = "dpi".toList ∧ ∃ v, IsDpi stod args v) ∨ (n = "font".toList ∧ ∃ f, IsFontName T.loadFont args f) ∨
      (n = "font-size".toList ∧ ∃ v, IsFontSize stod args v)) ?_ ?_ set s
  · intro n h args s s₁ hf hr
    rcases docTable_step hf hr with ⟨w, v, hv, -⟩ | ⟨w, v, hv, -⟩ | ⟨w, v, hv, -⟩ | ⟨w, v, hv, -⟩ | ⟨w, v, hv, -⟩
    · exact .inl ⟨w, v, hv⟩
    · exact .inr (.inl ⟨w, v, hv⟩)
    · exact .inr (.inr (.inl ⟨w, v, hv⟩))
    · exact .inr (.inr (.inr (.inl ⟨w, v, hv⟩)))
    · exact .inr (.inr (.inr (.inr ⟨w, v, hv⟩)))
  · rintro n args s (⟨rfl, v, hv⟩ | ⟨rfl, v, hv⟩ | ⟨rfl, v, hv⟩ | ⟨rfl, v, hv⟩ | ⟨rfl, v, hv⟩)
    · refine ⟨_, (s.1, v), rfl, ?_⟩
      simp only [(isText_iff _ _).2 hv]
    · refine ⟨_, ({ s.1 with size := { s.1.size with width := v.1, height := v.2 } }, s.2), rfl, ?_⟩
      simp only [(setSize_ok stod args s.1 _).2 ⟨v, hv, rfl⟩]
    · refine ⟨_, ({ s.1 with size := { s.1.size with dpi := v } }, s.2), rfl, ?_⟩
      simp only [(setDpi_ok stod args s.1 _).2 ⟨v, hv, rfl⟩]
    · refine ⟨_, ({ s.1 with fonts := v :: s.1.fonts }, s.2), rfl, ?_⟩
      simp only [(setFont_ok T args s.1 _).2 ⟨v, hv, rfl⟩]
    · refine ⟨_, ({ s.1 with size := { s.1.size with fontSize := v } }, s.2), rfl, ?_⟩
      simp only [(setFontSize_ok stod args s.1 _).2 ⟨v, hv, rfl⟩]

/-- C86: the settings of a document are accepted exactly if each of them means something, and the page then is as they
say: of repeated settings the last counts (of fonts all, the last first), what is not set stays. -/
theorem C86_settings (set : List Expr) (L L' : Layer φ) (name : Str) :
    Executed (evalTable (docSettings T stod)) set (L, "plot".toList) (L', name) ↔ PageMeans T stod set L L' name := by
  constructor
  · intro he
    obtain ⟨h1, h2, h3, h4, h5, h6⟩ := page_executed he
    exact ⟨(page_accept set _).1 ⟨_, he⟩, h1, h2, h3, h4, h5, h6⟩
  · rintro ⟨ha, k1, k2, k3, k4, ⟨own', k5, k5'⟩, k6, k7, k8, k9⟩
    obtain ⟨⟨M, m⟩, he⟩ := (page_accept (T := T) set (L, "plot".toList)).2 ha
    obtain ⟨h1, h2, h3, h4, ⟨own, h5, h5'⟩, h6, h7, h8, h9⟩ := page_executed he
    have e1 := Final.unique (fun args a b => isText_unique (args := args) (a := a) (b := b)) k1 h1
    have e2 := Final.unique (fun args a b => isSheet_unique (args := args) (a := a) (b := b)) k2 h2
    have e3 := Final.unique (fun args a b => isDpi_unique (args := args) (a := a) (b := b)) k3 h3
    have e4 := Final.unique (fun args a b => isFontSize_unique (args := args) (a := a) (b := b)) k4 h4
    have e5 := forall₂_unique (fun a b b' h h' => isFontName_unique (args := a) h h') k5 h5
    have : (L', name) = (M, m) := by
      obtain ⟨⟨w, h, d, f⟩, fonts, bg, pal, st, dl⟩ := L'
      obtain ⟨⟨w', h', d', f'⟩, fonts', bg', pal', st', dl'⟩ := M
      simp only [Prod.mk.injEq] at *
      obtain ⟨e2, e2'⟩ := e2
      subst e1 e2 e2' e3 e4 e5 k5' h5' k6 h6 k7 h7 k8 h8 k9 h9
      exact ⟨rfl, rfl⟩
    rw [this]
    exact he

end

/-- `class draw; dpi 30; size A4; font-size 3pt` -/
example : PageMeans monoEnv someStod
    [cmd "class" [.literal "draw".toList], cmd "dpi" [.literal ['3', '0']], cmd "size" [.literal "A4".toList],
      cmd "font-size" [.literal ['3', 'p', 't']]] (newLayer Unit)
    { newLayer Unit with size := ⟨⟨.mm, 210⟩, ⟨.mm, 297⟩, 30, ⟨.pt, 3⟩⟩ } "draw".toList := by
  have h30 : IsDpi someStod [.literal ['3', '0']] 30 := ⟨_, rfl, by
    simp [exprToFloat, Expr.isValue, Expr.getValue, someStod]⟩
  have h3 : IsFontSize someStod [.literal ['3', 'p', 't']] ⟨.pt, 3⟩ :=
    ⟨_, _, rfl, ⟨[], .inl rfl⟩, 3, 1, by simp [someStod], .inr ⟨by simp, "pt", .pt, 1, by simp [measureUnits], rfl, by simp⟩⟩
  have hA : IsSheet someStod [.literal "A4".toList] (⟨.mm, 210⟩, ⟨.mm, 297⟩) := by
    have := IsSheet.paper (stod := someStod) (a := .literal "A4".toList) (name := "A4".toList) (w := 210) (h := 297)
      ⟨[], .inl rfl⟩ (by decide)
    exact_mod_cast this
  refine ⟨?_, ⟨[], .inl rfl⟩, hA, h30, h3, ⟨[], .nil, rfl⟩, rfl, rfl, rfl, rfl⟩
  intro c hc
  simp only [List.mem_cons, List.not_mem_nil, or_false] at hc
  rcases hc with rfl | rfl | rfl | rfl
  · exact ⟨_, rfl, .inl ⟨rfl, _, [], .inl rfl⟩⟩
  · exact ⟨_, rfl, .inr (.inr (.inl ⟨rfl, _, h30⟩))⟩
  · exact ⟨_, rfl, .inr (.inl ⟨rfl, _, hA⟩)⟩
  · exact ⟨_, rfl, .inr (.inr (.inr (.inr ⟨rfl, _, h3⟩)))⟩

end Clip
