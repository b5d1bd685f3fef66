import Verif.Props.AxesOptions
set_option linter.unusedSimpArgs false
/-!
# C90: what `axis` and `axes` make of their options
-/
namespace Clip
open Commands Settings Pictures Drawing Options
variable {φ : Type} {P : PlotEnv φ} {E : ReadEnv}

theorem axes_entry (a : AxisDef φ) {n : Str} {h : Handler (AxesConf φ) Fail} (hf : optTable (axesOpts P E) n = some h) :
    ∃ m : String, m.toList = n ∧ AxesEntry P E (m, h) := by
  obtain ⟨p, hp, rfl, rfl⟩ := optTable_some hf
  exact ⟨p.1, rfl, axes_entries a p.1 p.2 (by simp) hf⟩

theorem optionsFor_cons (σ : Side) (c : Expr) (cs : List Expr) : optionsFor σ (c :: cs) =
    (match (nameOf c).bind splitName with
    | some (base, sides) => if σ ∈ sides then [.list (.literal (String.toList base) :: argsOf c)] else []
    | none => []) ++ optionsFor σ cs := by
  unfold optionsFor
  rw [List.filterMap_cons]
  cases (nameOf c).bind splitName with
  | none => rfl
  | some q =>
    obtain ⟨base, sides⟩ := q
    by_cases h : σ ∈ sides <;> simp [h]

theorem split_position : splitName "position".toList = none := by decide +kernel

theorem split_margins : ∀ n ∈ ["margin", "margin-top", "margin-right", "margin-bottom", "margin-left"],
    splitName (String.toList n) = none := by decide +kernel

theorem margin_names {n : String} {S : List Side}
    (h : (n, S) ∈ ([("margin", [.top, .right, .bottom, .left]), ("margin-top", [.top]), ("margin-right", [.right]),
      ("margin-bottom", [.bottom]), ("margin-left", [.left])] : List (String × List Side))) :
    n ∈ ["margin", "margin-top", "margin-right", "margin-bottom", "margin-left"] := by
  simp only [List.mem_cons, Prod.mk.injEq, List.not_mem_nil, or_false] at h ⊢
  rcases h with h | h | h | h | h <;> simp [h.1]

/-- The options act on the axis of a side as the options of one axis that concern it. -/
theorem side_acts {α : Type} {get : AxisDef φ → α} {t : List (String × Effect α)} (hc : Covers (axisOpts P E) get t)
    (he : ∀ (a : AxisDef φ) e, get { a with enable := e } = get a) (σ : Side) {cmds : List Expr} {c c' : AxesConf φ}
    (h : Executed (optTable (axesOpts P E)) cmds c c') :
    Acts t (optionsFor σ cmds) (get (sideOf c σ)) (get (sideOf c' σ)) := by
  induction h with
  | nil s => exact .nil _
  | @cons n args rest s s₁ s' hd hn hf hr _ ih =>
    obtain ⟨m, hm, hent⟩ := axes_entry s.top hf
    rw [optionsFor_cons, nameOf_isValue hn, ← hm, Option.bind_some]
    rcases hent with ⟨base, S, h, hs, hmem, heff, _⟩ | ⟨hpos, heff, _⟩ | ⟨S, hS, heff, _⟩
    · dsimp only at hs heff
      rw [hs]
      dsimp only
      have := (heff _ _ _ hr).2 σ
      by_cases hσ : σ ∈ S
      · rw [if_pos hσ, List.singleton_append]
        have h1 := this.1 hσ
        rcases hc (base, h) hmem with ⟨f, hf', hE⟩ | ⟨hno, hk⟩
        · exact .act (n := base) (f := f) rfl hf' (hE _ _ _ h1) ih
        · refine .skip ?_ (hk _ _ _ h1 ▸ ih)
          intro q hq hne
          exact hno q hq (String.toList_inj.1 (Option.some.inj hne).symm)
      · rw [if_neg hσ, List.nil_append, ← this.2 hσ]
        exact ih
    · dsimp only at hpos heff
      rw [hpos, split_position]
      have := ((heff _ _ _ hr).2 σ).2
      rw [this, he] at ih
      exact ih
    · dsimp only at hS heff
      rw [split_margins _ (margin_names hS)]
      have := (heff _ _ _ hr σ).1
      rw [this] at ih
      exact ih

theorem enable_acts (σ : Side) (hk : ∀ (n : String) (h : Handler (AxisDef φ) Fail), (n, h) ∈ axisOpts P E → Keeps (·.enable) h)
    {cmds : List Expr} {c c' : AxesConf φ} (h : Executed (optTable (axesOpts P E)) cmds c c') :
    LastOf (IsPosition σ) ["position"] cmds (sideOf c σ).enable (sideOf c' σ).enable := by
  induction h with
  | nil s => exact .nil _
  | @cons n args rest s s₁ s' hd hn hf hr _ ih =>
    obtain ⟨m, hm, hent⟩ := axes_entry s.top hf
    rcases hent with ⟨base, S, h, hs, hmem, heff, _⟩ | ⟨hpos, heff, _⟩ | ⟨S, hS, heff, _⟩
    · dsimp only at hs heff
      have h1 := (heff _ _ _ hr).2 σ
      have : (sideOf s₁ σ).enable = (sideOf s σ).enable := by
        by_cases hσ : σ ∈ S
        · exact hk _ _ hmem _ _ _ (h1.1 hσ)
        · rw [h1.2 hσ]
      refine .skip ?_ (this ▸ ih)
      intro q hq hne
      simp only [List.map_cons, List.map_nil, List.mem_cons, List.not_mem_nil, or_false] at hq
      subst hq
      rw [nameOf_isValue hn, ← hm] at hne
      rw [Option.some.inj hne, split_position] at hs
      cases hs
    · dsimp only at hpos heff
      exact .act (n := "position") (f := sets (IsPosition σ)) (by rw [nameOf_isValue hn, ← hm, hpos]) (by simp)
        ((heff _ _ _ hr).2 σ).1 ih
    · dsimp only at hS heff
      have := (heff _ _ _ hr σ).1
      refine .skip ?_ (this ▸ ih)
      intro q hq hne
      simp only [List.map_cons, List.map_nil, List.mem_cons, List.not_mem_nil, or_false] at hq
      subst hq
      rw [nameOf_isValue hn, ← hm] at hne
      have := String.toList_inj.1 (Option.some.inj hne)
      subst this
      exact absurd (margin_names hS) (by dsimp only; decide)

theorem margin_mem {n : String} {S : List Side} {σ : Side}
    (h : (n, S) ∈ ([("margin", [.top, .right, .bottom, .left]), ("margin-top", [.top]), ("margin-right", [.right]),
      ("margin-bottom", [.bottom]), ("margin-left", [.left])] : List (String × List Side))) :
    σ ∈ S ↔ n ∈ ["margin", "margin-" ++ σ.word] := by
  simp only [List.mem_cons, Prod.mk.injEq, List.not_mem_nil, or_false] at h ⊢
  rcases h with ⟨rfl, rfl⟩ | ⟨rfl, rfl⟩ | ⟨rfl, rfl⟩ | ⟨rfl, rfl⟩ | ⟨rfl, rfl⟩ <;> cases σ <;> simp [Side.word]

theorem margin_word (σ : Side) : ("margin-" ++ σ.word) ∈ ["margin", "margin-top", "margin-right", "margin-bottom", "margin-left"] := by
  cases σ <;> simp [Side.word]

theorem margin_acts (σ : Side) {cmds : List Expr} {c c' : AxesConf φ}
    (h : Executed (optTable (axesOpts P E)) cmds c c') :
    LastOf (IsSize E) ["margin", "margin-" ++ σ.word] cmds (marginOf c σ) (marginOf c' σ) := by
  have hmar : ∀ (a b : AxesConf φ), b.margins = a.margins → marginOf b σ = marginOf a σ := by
    intro a b hab; cases σ <;> simp [marginOf, hab]
  have hsub : ∀ q ∈ ["margin", "margin-" ++ σ.word].map (fun n => (n, sets (IsSize E))),
      q.1 ∈ ["margin", "margin-top", "margin-right", "margin-bottom", "margin-left"] := by
    intro q hq
    simp only [List.map_cons, List.map_nil, List.mem_cons, List.not_mem_nil, or_false] at hq
    rcases hq with rfl | rfl
    · simp
    · exact margin_word σ
  induction h with
  | nil s => exact .nil _
  | @cons n args rest s s₁ s' hd hn hf hr _ ih =>
    obtain ⟨m, hm, hent⟩ := axes_entry s.top hf
    rcases hent with ⟨base, S, h, hs, hmem, heff, _⟩ | ⟨hpos, heff, _⟩ | ⟨S, hS, heff, _⟩
    · dsimp only at hs heff
      refine .skip ?_ (hmar _ _ (heff _ _ _ hr).1 ▸ ih)
      intro q hq hne
      rw [nameOf_isValue hn, ← hm] at hne
      rw [Option.some.inj hne, split_margins _ (hsub q hq)] at hs
      cases hs
    · dsimp only at hpos heff
      refine .skip ?_ (hmar _ _ (heff _ _ _ hr).1 ▸ ih)
      intro q hq hne
      rw [nameOf_isValue hn, ← hm, hpos] at hne
      have := hsub q hq
      rw [← String.toList_inj.1 (Option.some.inj hne)] at this
      revert this
      decide
    · dsimp only at hS heff
      by_cases hσ : σ ∈ S
      · refine .act (n := m) (f := sets (IsSize E)) (by rw [nameOf_isValue hn, ← hm]) ?_ (((heff _ _ _ hr) σ).2.1 hσ) ih
        exact List.mem_map.2 ⟨m, (margin_mem hS).1 hσ, rfl⟩
      · refine .skip ?_ (((heff _ _ _ hr) σ).2.2 hσ ▸ ih)
        intro q hq hne
        rw [nameOf_isValue hn, ← hm] at hne
        have := String.toList_inj.1 (Option.some.inj hne)
        subst this
        obtain ⟨n', hn', hq'⟩ := List.mem_map.1 hq
        have hq1 : n' = q.1 := congrArg Prod.fst hq'
        exact hσ ((margin_mem hS).2 (hq1 ▸ hn'))

set_option maxHeartbeats 4000000 in
theorem axis_enable {n : String} {h : Handler (AxisDef φ) Fail} (hm : (n, h) ∈ axisOpts P E) : Keeps (·.enable) h := by
  have : Covers (axisOpts P E : List (String × Handler (AxisDef φ) Fail)) (·.enable) [] := by
    axis_open; settingr
  rcases this _ hm with ⟨f, hf, _⟩ | ⟨_, hk⟩
  · simp at hf
  · exact hk

/-- The names in the table. -/
def axesNames : List String := ["position", "scale-x", "scale-y", "scale-top", "scale-right", "scale-bottom", "scale-left", "limit-x",
  "limit-y", "limit-top", "limit-right", "limit-bottom", "limit-left", "label-placement-x", "label-placement-y",
  "label-placement-top", "label-placement-right", "label-placement-bottom", "label-placement-left", "label-format", "label-format-x", "label-format-y", "label-attach-top", "label-attach-bottom", "label-attach-right",
  "label-attach-left", "label-offset-top", "label-offset-right", "label-offset-bottom", "label-offset-left",
  "label-padding-top", "label-padding-right", "label-padding-bottom", "label-padding-left", "label-rotate-top",
  "label-rotate-right", "label-rotate-bottom", "label-rotate-left", "label-format-top", "label-format-right",
  "label-format-bottom", "label-format-left", "label-font-size", "label-color", "label-color-x", "label-color-y", "label-color-top", "label-color-right", "label-color-bottom", "label-color-left", "label-font",
  "label-font-top", "label-font-right", "label-font-bottom", "label-font-left", "label-font-size-x", "label-font-size-y", "label-font-size-top", "label-font-size-right", "label-font-size-bottom", "label-font-size-left", "label-placement-x", "label-placement-y", "tick-placement-top", "tick-placement-right", "tick-placement-bottom", "tick-placement-left", "tick-offset-top", "tick-offset-right", "tick-offset-bottom", "tick-offset-left", "tick-length-top", "tick-length-right", "tick-length-bottom", "tick-length-left", "title-x",
  "title-y", "title-top", "title-right", "title-bottom", "title-left", "title-font", "title-font-top", "title-font-right", "title-font-bottom", "title-font-left", "title-font-size", "title-font-size-top", "title-font-size-right", "title-font-size-bottom", "title-font-size-left", "title-color", "title-color-top", "title-color-right", "title-color-bottom", "title-color-left", "title-offset-top", "title-offset-right", "title-offset-bottom", "title-offset-left", "title-padding-top", "title-padding-right", "title-padding-bottom", "title-padding-left", "title-rotate-top", "title-rotate-right", "title-rotate-bottom", "title-rotate-left", "margin",
  "margin-top", "margin-right", "margin-bottom", "margin-left", "border-width", "border-width-top", "border-width-right", "border-width-bottom", "border-width-left", "border-color", "border-color-top", "border-color-right", "border-color-bottom", "border-color-left", "border-style", "border-style-top", "border-style-right",
  "border-style-bottom", "border-style-left", "font", "font-size"]

set_option maxRecDepth 4000 in
theorem axesNames_eq : (axesOpts P E : List (String × Handler (AxesConf φ) Fail)).map (·.1) = axesNames := rfl

theorem sided_known : ∀ p ∈ sided, ∀ e ∈ p.2, ∃ n ∈ axesNames, String.toList n = String.toList p.1 ++ String.toList e.1 := by
  decide +kernel

theorem axes_has {n : String} (h : n ∈ axesNames) : ∃ k, optTable (axesOpts P E : List (String × Handler (AxesConf φ) Fail)) n.toList = some k := by
  cases hf : optTable (axesOpts P E : List (String × Handler (AxesConf φ) Fail)) n.toList with
  | some k => exact ⟨k, rfl⟩
  | none =>
    rw [← axesNames_eq (P := P) (E := E) (φ := φ)] at h
    obtain ⟨p, hp, rfl⟩ := List.mem_map.1 h
    exact absurd rfl (optTable_none.1 hf p hp)

theorem split_known {n : Str} {base : String} {S : List Side} (h : splitName n = some (base, S)) :
    ∃ m ∈ axesNames, m.toList = n := by
  unfold splitName at h
  obtain ⟨p, hp, h⟩ := List.exists_of_findSome?_eq_some h
  rw [Option.map_eq_some_iff] at h
  obtain ⟨e, he, _⟩ := h
  have h1 := List.mem_of_find?_eq_some he
  have h2 := List.find?_some he
  obtain ⟨m, hm, h3⟩ := sided_known p hp e h1
  exact ⟨m, hm, by rw [h3]; exact (of_decide_eq_true h2).symm⟩

theorem actsNil {α : Type} {cmds : List Expr} {a b : α} (h : Acts [] cmds a b) : b = a := by
  generalize ht : ([] : List (String × Effect α)) = t at h
  induction h with
  | nil a => rfl
  | act _ hm => subst ht; simp at hm
  | skip _ _ ih => exact ih

theorem axes_accepts (hp : E.palette ≠ []) (cmds : List Expr) (a : AxesConf φ) :
    (∃ b, Executed (optTable (axesOpts P E)) cmds a b) ↔ ∀ c ∈ cmds, axesTakes P E c := by
  rw [executed_iff_all (ok := fun n args =>
    (∃ base sides A, splitName n = some (base, sides) ∧ (base, A) ∈ axisTakes P E ∧ A args) ∨
    (n = "position".toList ∧ ∀ e ∈ args, ∃ τ : Side, IsWord e τ.word) ∨
    (∃ m ∈ ["margin", "margin-top", "margin-right", "margin-bottom", "margin-left"],
      n = String.toList m ∧ ∃ v, IsSize E args v))]
  · refine forall₂_congr fun c _ => ?_
    unfold axesTakes
    constructor
    · rintro ⟨n, hn, ⟨base, sides, A, h1, h2, h3⟩ | ⟨rfl, h⟩ | ⟨m, hm, rfl, h⟩⟩
      · exact .inl ⟨n, base, sides, A, hn, h1, h2, h3⟩
      · exact .inr (.inl ⟨hn, h⟩)
      · exact .inr (.inr ⟨m, hm, hn, h⟩)
    · rintro (⟨n, base, sides, A, hn, h1, h2, h3⟩ | ⟨hn, h⟩ | ⟨m, hm, hn, h⟩)
      · exact ⟨n, hn, .inl ⟨base, sides, A, h1, h2, h3⟩⟩
      · exact ⟨_, hn, .inr (.inl ⟨rfl, h⟩)⟩
      · exact ⟨_, hn, .inr (.inr ⟨m, hm, rfl, h⟩)⟩
  · intro n h args s s₁ hf hr
    obtain ⟨m, rfl, hent⟩ := axes_entry s.top hf
    rcases hent with ⟨base, S, h, hs, hmem, heff, hacc⟩ | ⟨hpos, heff, hacc⟩ | ⟨S, hS, heff, hacc⟩
    · obtain ⟨A, hA, hAcc⟩ := axis_takes hp hmem
      exact .inl ⟨base, S, A, hs, hA, (hacc A hAcc args s).1 ⟨s₁, hr⟩⟩
    · exact .inr (.inl ⟨congrArg String.toList hpos, (hacc args s).1 ⟨s₁, hr⟩⟩)
    · exact .inr (.inr ⟨m, margin_names hS, rfl, (hacc args s).1 ⟨s₁, hr⟩⟩)
  · rintro n args s (⟨base, S, A, hs, hA, h⟩ | ⟨rfl, h⟩ | ⟨m, hm, rfl, h⟩)
    · obtain ⟨m, hm, rfl⟩ := split_known hs
      obtain ⟨k, hk⟩ := axes_has (P := P) (E := E) (φ := φ) hm
      obtain ⟨m', hm', hent⟩ := axes_entry s.top hk
      have := String.toList_inj.1 hm'
      subst this
      rcases hent with ⟨base', S', h', hs', hmem, heff, hacc⟩ | ⟨hpos, heff, hacc⟩ | ⟨S, hS, heff, hacc⟩
      · dsimp only at hs' hacc
        rw [hs] at hs'
        cases hs'
        obtain ⟨A', hA', hAcc⟩ := axis_takes hp hmem
        rw [takes_unique axisTakes_nodup hA hA'] at h
        obtain ⟨s₁, h1⟩ := (hacc A' hAcc args s).2 h
        exact ⟨k, s₁, hk, h1⟩
      · dsimp only at hpos
        rw [hpos, split_position] at hs; cases hs
      · rw [split_margins _ (margin_names hS)] at hs; cases hs
    · obtain ⟨k, hk⟩ := axes_has (P := P) (E := E) (φ := φ) (n := "position") (by decide)
      obtain ⟨m', hm', hent⟩ := axes_entry s.top hk
      have := String.toList_inj.1 hm'
      subst this
      rcases hent with ⟨base', S', h', hs', hmem, heff, hacc⟩ | ⟨hpos, heff, hacc⟩ | ⟨S, hS, heff, hacc⟩
      · rw [split_position] at hs'; cases hs'
      · obtain ⟨s₁, h1⟩ := (hacc args s).2 h
        exact ⟨k, s₁, hk, h1⟩
      · exact absurd (margin_names hS) (by dsimp only; decide)
    · obtain ⟨k, hk⟩ := axes_has (P := P) (E := E) (φ := φ) (n := m) (by revert m; decide)
      obtain ⟨m', hm', hent⟩ := axes_entry s.top hk
      have := String.toList_inj.1 hm'
      subst this
      rcases hent with ⟨base', S', h', hs', hmem, heff, hacc⟩ | ⟨hpos, heff, hacc⟩ | ⟨S, hS, heff, hacc⟩
      · rw [split_margins _ hm] at hs'; cases hs'
      · dsimp only at hpos
        subst hpos
        exact absurd hm (by decide)
      · obtain ⟨s₁, h1⟩ := (hacc args s).2 h
        exact ⟨k, s₁, hk, h1⟩

/-- C90: the options of `axes`. -/
theorem C90_axes (P : PlotEnv φ) (s : PlotState φ) (hp : (s.env P).palette ≠ []) (args : List Expr) :
    Configured (axesConfigure P s args) (∀ c ∈ args, axesTakes P (s.env P) c)
      (AxesMeans P (s.env P) args (axesDefault s)) (fun o c => c = o) := by
  have hacc := axes_accepts (P := P) hp args (axesDefault s)
  have hok : ∀ c, axesConfigure P s args = .ok c ↔ Executed (optTable (axesOpts P (s.env P))) args (axesDefault s) c := by
    intro c
    rw [← walkRead_ok]
    unfold axesConfigure
    rcases walkRead (optTable (axesOpts P (s.env P))) args (axesDefault s) with ⟨c', _ | _⟩ <;> simp
  constructor
  · intro hno c hc
    exact hno (hacc.1 ⟨c, (hok c).1 hc⟩)
  · intro h
    obtain ⟨o, ho⟩ := hacc.2 h
    refine ⟨o, ⟨fun σ => ?_, fun σ => enable_acts σ (fun _ _ => axis_enable) ho, fun σ => margin_acts σ ho⟩, fun c => ?_⟩
    · refine axis_means_of hp (fun get t hc _ he => side_acts hc he σ ho) ?_
      exact actsNil (side_acts axis_align (fun _ _ => rfl) σ ho)
    · constructor
      · intro hc
        have := (hok o).2 ho
        rw [hc] at this
        cases this; rfl
      · rintro rfl; exact (hok _).2 ho

/-! ## `axis` -/

theorem acts_filter {α σ : Type} {opts : List (String × Handler σ Fail)} {t : List (String × Effect α)}
    (ht : ∀ q ∈ t, ∃ p ∈ opts, p.1 = q.1) {cmds : List Expr} {a b : α}
    (h : Acts t (cmds.filter (isKnown (optTable opts))) a b) : Acts t cmds a b := by
  induction cmds generalizing a with
  | nil => exact h
  | cons c cs ih =>
    rw [List.filter_cons] at h
    split at h
    · cases h with
      | act h1 h2 h3 h4 => exact .act h1 h2 h3 (ih h4)
      | skip h1 h2 => exact .skip h1 (ih h2)
    · rename_i hk
      refine .skip ?_ (ih h)
      intro q hq hn
      obtain ⟨p, hp, hpq⟩ := ht q hq
      apply hk
      cases hc : optTable opts (String.toList q.1) with
      | none => exact absurd (by rw [hpq]) (optTable_none.1 hc p hp)
      | some k =>
        obtain ⟨x, args, rfl, hx, hv⟩ := nameOf_some hn
        simp only [isKnown, hx, hv, hc, Option.isSome_some, Bool.and_self]

/-- The table of the first pass. -/
noncomputable def alignOpts : List (String × Handler (AxisDef φ) Fail) :=
  [("align", field (fun args _ => readAlign args) fun (a : AxisDef φ) v => { a with align := v })]

theorem axisConfigure_ok {P : PlotEnv φ} {s : PlotState φ} {args : List Expr} {b : AxisDef φ} :
    axisConfigure P s args = .ok b ↔ args ≠ [] ∧ (∀ c ∈ args, isCommand c = true) ∧
      ∃ a, Executed (optTable alignOpts) (args.filter (isKnown (optTable (alignOpts (φ := φ))))) (axisNew s) a ∧
        Executed (optTable (axisOpts P (s.env P))) (args.filter (isKnown (optTable (axisOpts (φ := φ) P (s.env P)))))
          (axisPreset a) b := by
  unfold axisConfigure
  by_cases h : args = []
  · simp [h]
  · rw [if_neg h]
    simp only [ne_eq, h, not_false_eq_true, true_and]
    show (match walkSkip (optTable alignOpts) args (axisNew s) with
      | (_, some f) => Except.error f
      | (a, none) => _) = _ ↔ _
    cases hw : walkSkip (optTable (alignOpts (φ := φ))) args (axisNew s) with
    | mk a o =>
      cases o with
      | some f =>
        simp only [reduceCtorEq, false_iff]
        rintro ⟨h1, a', h2, _⟩
        rw [(walkSkip_ok _ _ _ _).2 ⟨h1, h2⟩] at hw
        cases hw
      | none =>
        have h1 := (walkSkip_ok _ _ _ _).1 hw
        dsimp only
        constructor
        · intro h2
          refine ⟨h1.1, a, h1.2, ?_⟩
          split at h2
          · cases h2
          · rename_i b' hb
            cases h2
            exact ((walkSkip_ok _ _ _ _).1 hb).2
        · rintro ⟨_, a', h2, h3⟩
          have : a' = a := by
            have := (walkSkip_ok _ _ _ _).2 ⟨h1.1, h2⟩
            rw [hw] at this
            cases this; rfl
          subst this
          rw [(walkSkip_ok _ _ _ _).2 ⟨h1.1, h3⟩]

theorem align_covers : Covers (alignOpts (φ := φ)) (fun a : AxisDef φ => { a with align := .x }) [] := by
  unfold alignOpts
  exact covers_skip (by simp) (keeps_field fun _ _ => rfl) covers_nil

theorem align_acts : Covers (alignOpts (φ := φ)) (·.align) [("align", sets (IsOneOf alignWords))] := by
  unfold alignOpts
  exact covers_act _ (.head _) (eff_align fun _ _ => rfl) covers_nil

theorem accepted_filter {σ : Type} {opts : List (String × Handler σ Fail)} {t : Takes} (hm : Match opts t)
    (hn : (t.map (·.1)).Nodup) (cmds : List Expr) (hc : ∀ c ∈ cmds, isCommand c = true) (s : σ) :
    (∃ s', Executed (optTable opts) (cmds.filter (isKnown (optTable opts))) s s') ↔
      ∀ c ∈ cmds, ∀ n A, (n, A) ∈ t → nameOf c = some (String.toList n) → A (argsOf c) := by
  rw [accepted_iff hm hn]
  unfold Acceptable
  constructor
  · intro h c hcm n A hA hname
    have hk : isKnown (optTable opts) c = true := by
      obtain ⟨i, hi, ht⟩ := List.mem_iff_getElem.1 hA
      have hi' : i < opts.length := by rw [hm.length_eq]; exact hi
      have hg := hm.get hi' hi
      rw [List.get_eq_getElem, List.get_eq_getElem, ht] at hg
      cases hf : optTable opts (String.toList n) with
      | none => exact absurd (by rw [hg.1]) (optTable_none.1 hf opts[i] (List.getElem_mem _))
      | some k =>
        obtain ⟨x, args, rfl, hx, hv⟩ := nameOf_some hname
        simp only [isKnown, hx, hv, hf, Option.isSome_some, Bool.and_self]
    obtain ⟨n', A', hA', hname', h'⟩ := h c (List.mem_filter.2 ⟨hcm, hk⟩)
    rw [hname] at hname'
    have := String.toList_inj.1 (Option.some.inj hname')
    subst this
    rw [takes_unique hn hA hA']
    exact h'
  · intro h c hcm
    obtain ⟨hcm, hk⟩ := List.mem_filter.1 hcm
    obtain ⟨n, hname⟩ : ∃ n, nameOf c = some n := by
      unfold isKnown at hk
      split at hk
      · rename_i x l
        rw [Bool.and_eq_true] at hk
        exact ⟨_, nameOf_isValue hk.1 _⟩
      · cases hk
    obtain ⟨x, args, rfl, hx, hv⟩ := nameOf_some hname
    simp only [isKnown, hx, hv, Bool.true_and] at hk
    obtain ⟨k, hf⟩ := Option.isSome_iff_exists.1 hk
    obtain ⟨p, hp, hpn, rfl⟩ := optTable_some hf
    obtain ⟨i, hi, rfl⟩ := List.mem_iff_getElem.1 hp
    have hi' : i < t.length := by rw [← hm.length_eq]; exact hi
    have hg := hm.get hi hi'
    rw [List.get_eq_getElem, List.get_eq_getElem] at hg
    refine ⟨t[i].1, t[i].2, List.getElem_mem _, ?_, ?_⟩
    · rw [hname, ← hpn, hg.1]
    · exact h _ hcm t[i].1 t[i].2 (List.getElem_mem _) (by rw [hname, ← hpn, hg.1])

/-- C90: the options of `axis`.  Partial: options that `axis` does not know are ignored, and `axis` without options is refused
(see `C90_axis_unknown`, `C90_axis_empty`). -/
theorem C90_axis_partial (P : PlotEnv φ) (s : PlotState φ) (hp : (s.env P).palette ≠ []) (args : List Expr) :
    ((∃ b, axisConfigure P s args = .ok b) ↔ args ≠ [] ∧ (∀ c ∈ args, isCommand c = true) ∧
      ∀ c ∈ args, ∀ n A, (n, A) ∈ ("align", Has (IsOneOf alignWords)) :: axisTakes P (s.env P) →
        nameOf c = some (String.toList n) → A (argsOf c)) ∧
    ∀ b, axisConfigure P s args = .ok b → ∃ al, LastOf (IsOneOf alignWords) ["align"] args .x al ∧
      AxisMeans P (s.env P) args (axisPreset { axisNew s with align := al }) b := by
  constructor
  · constructor
    · rintro ⟨b, hb⟩
      obtain ⟨h1, h2, a, h3, h4⟩ := axisConfigure_ok.1 hb
      refine ⟨h1, h2, fun c hc n A hA hname => ?_⟩
      rcases List.mem_cons.1 hA with hA | hA
      · cases hA
        refine (accepted_filter (opts := alignOpts (φ := φ)) (t := [("align", Has (IsOneOf alignWords))])
          (match_cons acc_align match_nil) (by simp) args h2 (axisNew s)).1 ⟨a, h3⟩ c hc _ _ (.head _) hname
      · exact (accepted_filter (axis_accepts hp) axisTakes_nodup args h2 (axisPreset a)).1 ⟨b, h4⟩ c hc n A hA hname
    · rintro ⟨h1, h2, h3⟩
      obtain ⟨a, ha⟩ := (accepted_filter (opts := alignOpts (φ := φ)) (t := [("align", Has (IsOneOf alignWords))])
          (match_cons acc_align match_nil) (by simp) args h2 (axisNew s)).2 fun c hc n A hA hname =>
            h3 c hc n A (by simp only [List.mem_cons, List.not_mem_nil, or_false] at hA ⊢; exact .inl hA) hname
      obtain ⟨b, hb⟩ := (accepted_filter (axis_accepts hp) axisTakes_nodup args h2 (axisPreset a)).2
        fun c hc n A hA hname => h3 c hc n A (List.mem_cons_of_mem _ hA) hname
      exact ⟨b, axisConfigure_ok.2 ⟨h1, h2, a, ha, hb⟩⟩
  · intro b hb
    obtain ⟨h1, h2, a, h3, h4⟩ := axisConfigure_ok.1 hb
    refine ⟨a.align, acts_filter (opts := alignOpts (φ := φ)) (by simp [alignOpts]) (acts_of_executed align_acts h3), ?_⟩
    have hrest := kept_of_covers align_covers h3
    have ha : { axisNew s with align := a.align } = a :=
      (congrArg (fun x : AxisDef φ => { x with align := a.align }) hrest).symm
    rw [ha]
    refine axis_means_of hp (fun get t hc ht he => acts_filter ht (acts_of_executed hc h4)) ?_
    exact kept_of_covers axis_align h4

/-- C90, violated by the code: `axis` ignores an option it does not know (the other elements refuse it). -/
theorem C90_axis_unknown (P : PlotEnv φ) (s : PlotState φ) (hp : (s.env P).palette ≠ []) :
    axisConfigure P s [cmd "titel" [.literal "t".toList], cmd "align" [.literal "top".toList]] =
      axisConfigure P s [cmd "align" [.literal "top".toList]] := by
  have key : ∀ b, axisConfigure P s [cmd "titel" [.literal "t".toList], cmd "align" [.literal "top".toList]] = .ok b ↔
      axisConfigure P s [cmd "align" [.literal "top".toList]] = .ok b := by
    intro b
    rw [axisConfigure_ok, axisConfigure_ok]
    have h1 : isKnown (optTable (alignOpts (φ := φ))) (cmd "titel" [.literal "t".toList]) = false := by
      simp [isKnown, cmd, optTable, alignOpts, Expr.isValue, Expr.getValue]
    have h2 : isKnown (optTable (axisOpts (φ := φ) P (s.env P))) (cmd "titel" [.literal "t".toList]) = false := by
      simp [isKnown, cmd, optTable, axisOpts, Expr.isValue, Expr.getValue]
    rw [List.filter_cons, if_neg (by rw [h1]; simp), List.filter_cons (x := cmd "titel" _), if_neg (by rw [h2]; simp)]
    simp [isCommand, cmd, Expr.isValue]
  have hok : ∃ b, axisConfigure P s [cmd "align" [.literal "top".toList]] = .ok b := by
    rw [(C90_axis_partial P s hp _).1]
    refine ⟨by simp, by simp [isCommand, cmd, Expr.isValue], ?_⟩
    intro c hc n A hA hn
    simp only [List.mem_cons, List.not_mem_nil, or_false] at hc
    subst hc
    have : n = "align" := String.toList_inj.1 (Option.some.inj hn).symm
    subst this
    have hA' : A = Has (IsOneOf alignWords) := by
      rcases List.mem_cons.1 hA with h | h
      · cases h; rfl
      · exfalso
        have : "align" ∈ (axisTakes P (s.env P)).map (·.1) := List.mem_map_of_mem h
        simp [axisTakes] at this
    subst hA'
    exact ⟨.top, "top", ⟨[], .inl rfl⟩, by simp [alignWords]⟩
  obtain ⟨b, hb⟩ := hok
  rw [hb, (key b).2 hb]

/-- C90, violated by the code: `axis` without options is refused (by an exception) although every option has a default. -/
theorem C90_axis_empty (P : PlotEnv φ) (s : PlotState φ) : axisConfigure P s [] = .error .thrown := rfl

/-- C90, violated by the code: `axes` has `tick-placement-top` and the like, but it refuses `tick-placement-x` and
`tick-placement-y`, whatever the placement. -/
theorem C90_axes_tick_placement (P : PlotEnv φ) (s : PlotState φ) (hp : (s.env P).palette ≠ []) (args : List Expr)
    (pre post : List Expr) (n : String) (hn : n = "tick-placement-x" ∨ n = "tick-placement-y") (c : AxesConf φ) :
    axesConfigure P s (pre ++ cmd n args :: post) ≠ .ok c := by
  refine (C90_axes P s hp _).1 (fun h => ?_) c
  have := h (cmd n args) (by simp)
  have hs : splitName n.toList = none := by rcases hn with rfl | rfl <;> decide +kernel
  have hname : nameOf (cmd n args) = some n.toList := rfl
  rcases this with ⟨m, base, sides, A, hm, hsp, _⟩ | ⟨hm, _⟩ | ⟨m, hmem, hm, _⟩
  · rw [hname] at hm
    cases hm
    rw [hs] at hsp
    cases hsp
  · rw [hname] at hm
    have := String.toList_inj.1 (Option.some.inj hm)
    subst this
    revert hn; decide
  · rw [hname] at hm
    have := String.toList_inj.1 (Option.some.inj hm)
    subst this
    revert hmem
    rcases hn with rfl | rfl <;> decide

/-- A block of options: `(title-x speed) (position bottom left) (margin-left 2px)`, as the top and the left axis see it. -/
example : optionsFor .bottom [cmd "title-x" [.literal "speed".toList], cmd "position" [.literal "bottom".toList],
      cmd "label-font-size" [.literal "12px".toList]] =
    [cmd "title" [.literal "speed".toList], cmd "label-font-size" [.literal "12px".toList]] ∧
    optionsFor .left [cmd "title-x" [.literal "speed".toList], cmd "position" [.literal "bottom".toList],
      cmd "label-font-size" [.literal "12px".toList]] = [cmd "label-font-size" [.literal "12px".toList]] := by
  constructor <;> rfl

/-- The options of this block are accepted. -/
example (P : PlotEnv φ) (E : ReadEnv) : ∀ c ∈ [cmd "title-x" [.literal "speed".toList],
    cmd "position" [.literal "bottom".toList, .literal "left".toList], cmd "border-style-left" []], axesTakes P E c := by
  intro c hc
  simp only [List.mem_cons, List.not_mem_nil, or_false] at hc
  rcases hc with rfl | rfl | rfl
  · exact .inl ⟨_, "title", _, Has IsText, rfl, (by decide +kernel : splitName "title-x".toList = some ("title", [.top, .bottom])),
      by simp [axisTakes], ⟨_, [], .inl rfl⟩⟩
  · refine .inr (.inl ⟨rfl, ?_⟩)
    intro e he
    simp only [cmd, argsOf, List.mem_cons, List.not_mem_nil, or_false] at he
    rcases he with rfl | rfl
    · exact ⟨.bottom, .inl rfl⟩
    · exact ⟨.left, .inl rfl⟩
  · exact .inl ⟨_, "border-style", _, anything, rfl,
      (by decide +kernel : splitName "border-style-left".toList = some ("border-style", [.left])), by simp [axisTakes], trivial⟩

end Clip
