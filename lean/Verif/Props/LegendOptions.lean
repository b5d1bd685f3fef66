import Verif.Spec.LegendOptions
import Verif.Props.AxesMean
set_option linter.unusedSimpArgs false
set_option linter.unusedTactic false
/-!
# C90: the options of `legend`
-/
namespace Clip
open Commands Settings Pictures Drawing Options
variable {φ : Type} {P : PlotEnv φ} {E : ReadEnv} {σ : Type}

/-! ## Items -/

theorem readSide_ok {args : List Expr} {v : HAlign} : readSide args = .ok v ↔ IsOneOf sideWords args v := by
  refine enum_iff fun w v => ?_
  unfold sideWords
  simp only [List.mem_cons, Prod.mk.injEq, List.not_mem_nil, or_false]
  constructor
  · intro h
    split_ifs at h with h1 h2 <;> cases h
    · exact ⟨_, h1.symm, by simp⟩
    · exact ⟨_, h2.symm, by simp⟩
  · rintro ⟨x, rfl, ⟨rfl, rfl⟩ | ⟨rfl, rfl⟩⟩ <;> simp

theorem eff_side {get : σ → HAlign} {put : σ → HAlign → σ} (h : ∀ s f, get (put s f) = f) :
    EffectOf get (sets (IsOneOf sideWords)) (field (fun args _ => readSide args) put) :=
  effect_field fun args s v hv => by show IsOneOf _ _ _; rw [h]; exact readSide_ok.1 hv

theorem acc_side {put : σ → HAlign → σ} : Accepts (field (fun args _ => readSide args) put) (Has (IsOneOf sideWords)) :=
  accepts_field fun _ _ => exists_congr fun _ => readSide_ok

macro "item_leaf" : tactic => `(tactic| first
  | leaf | exact eff_side fun _ _ => rfl
  | exact effect_part id (fun _ _ => rfl) (fun _ => rfl) (by leaf))

macro "item_setting" : tactic => `(tactic|
  repeat' (first
    | exact covers_nil
    | ((refine covers_skip ?_ ?_ ?_); (focus (simp; done)); (focus keepsr))
    | refine covers_act _ (by member) (by item_leaf) ?_))

set_option hygiene false in
macro "item_field" g:term:max : tactic => `(tactic| (
  first
  | refine last_of_executed (get := $g) ?_ he
  | refine acts_of_executed (get := $g) ?_ he
  unfold legendItemOpts
  show Covers _ _ _
  try simp only [List.map_cons, List.map_nil]
  item_setting))

set_option maxHeartbeats 4000000 in
theorem item_means (hp : E.palette ≠ []) {cmds : List Expr} {a b : LegendItem φ}
    (he : Executed (optTable (legendItemOpts P E)) cmds a b) : ItemMeans P E cmds a b where
  label := by item_field (·.label)
  labelAlign := by item_field (·.labelAlign)
  labelMargin := by item_field (·.labelMargin)
  labelColor := by item_field (·.labelColor)
  labelFonts := by item_field (·.labelFonts)
  labelFontSize := by item_field (·.labelFontSize)
  marker := by item_field (·.marker)
  markerAlign := by item_field (·.markerAlign)
  markerMargin := by item_field (·.markerMargin)
  markerColor := by item_field (·.markerColor)
  markerSize := by item_field (·.markerSize)

theorem item_accepts (hp : E.palette ≠ []) (cmds : List Expr) (a : LegendItem φ) :
    (∃ b, Executed (optTable (legendItemOpts P E)) cmds a b) ↔ Acceptable (itemTakes P E) cmds := by
  refine accepted_iff ?_ (by simp [itemTakes]) cmds a
  unfold legendItemOpts itemTakes
  repeat' (first | exact match_nil | refine match_cons acc_side ?_ | refine match_cons (by acc_opt) ?_)

theorem item_ok {s : PlotState φ} {args : List Expr} {i : LegendItem φ} :
    legendItemConfigure P s args = .ok i ↔
      Executed (optTable (legendItemOpts P (s.env P))) args (legendItemDefault s) i := by
  rw [← walkRead_ok]
  unfold legendItemConfigure
  rcases walkRead (optTable (legendItemOpts P (s.env P))) args (legendItemDefault s) with ⟨c', _ | _⟩ <;> simp

/-- C90: the options of an item of a legend. -/
theorem C90_legend_item (P : PlotEnv φ) (s : PlotState φ) (hp : (s.env P).palette ≠ []) (args : List Expr) :
    Configured (legendItemConfigure P s args) (Acceptable (itemTakes P (s.env P)) args)
      (ItemMeans P (s.env P) args (legendItemDefault s)) (fun o c => c = o) := by
  constructor
  · intro hno c hc
    exact hno ((item_accepts hp args _).1 ⟨c, item_ok.1 hc⟩)
  · intro h
    obtain ⟨o, ho⟩ := (item_accepts hp args (legendItemDefault s)).2 h
    refine ⟨o, item_means hp ho, fun c => ⟨fun hc => ?_, ?_⟩⟩
    · have := item_ok.2 ho
      rw [hc] at this
      cases this; rfl
    · rintro rfl; exact item_ok.2 ho

/-! ## Position -/

theorem position_step {hs vs : Bool} {e : Expr} {es : List Expr} {c : LegendConf φ} {w : String} (he : IsWord e w) :
    legendPosition hs vs (e :: es) c =
      if w = "top" then legendPosition hs true es { c with vert := .top }
      else if w = "bottom" then legendPosition hs true es { c with vert := .bottom }
      else if w = "left" then legendPosition true vs es { c with horiz := .left }
      else if w = "right" then legendPosition true vs es { c with horiz := .right }
      else if w = "center" then legendPosition hs vs es { c with
        horiz := if hs then c.horiz else .center
        vert := if vs then c.vert else .center }
      else (c, some (.error .invalidValue)) := by
  rw [legendPosition]
  simp only [word_eq he, decide_eq_true_eq]

/-- One direction of `position`, given whether the side has been fixed before. -/
def Placed {α : Type} (lo hi : String) (vl vh vc : α) (set : Bool) (args : List Expr) (a b : α) : Prop :=
  (LastWord [lo, hi] args lo ∧ b = vl) ∨ (LastWord [lo, hi] args hi ∧ b = vh) ∨
    ((∀ e ∈ args, ¬ IsWord e lo ∧ ¬ IsWord e hi) ∧
      (((∃ e ∈ args, IsWord e "center") ∧ set = false ∧ b = vc) ∨
        (((∀ e ∈ args, ¬ IsWord e "center") ∨ set = true) ∧ b = a)))

theorem lastWord_cons {words : List String} {args : List Expr} {w : String} {e : Expr} (h : LastWord words args w) :
    LastWord words (e :: args) w := by
  obtain ⟨hw, pre, x, post, rfl, h1, h2⟩ := h
  exact ⟨hw, e :: pre, x, post, rfl, h1, h2⟩

section
variable {α : Type} {lo hi : String} {vl vh vc : α} {st : Bool} {es : List Expr} {e : Expr} {a b : α}

theorem placed_nil : Placed lo hi vl vh vc st [] a a :=
  .inr (.inr ⟨fun _ h => by simp at h, .inr ⟨.inl fun _ h => by simp at h, rfl⟩⟩)

theorem placed_lo (he : IsWord e lo) (h : Placed lo hi vl vh vc true es vl b) : Placed lo hi vl vh vc st (e :: es) a b := by
  rcases h with ⟨h, rfl⟩ | ⟨h, rfl⟩ | ⟨h, ⟨_, h', _⟩ | ⟨_, rfl⟩⟩
  · exact .inl ⟨lastWord_cons h, rfl⟩
  · exact .inr (.inl ⟨lastWord_cons h, rfl⟩)
  · cases h'
  · exact .inl ⟨⟨by simp, [], e, es, rfl, he, fun x hx v hv => by
      simp only [List.mem_cons, List.not_mem_nil, or_false] at hv
      rcases hv with rfl | rfl
      · exact (h x hx).1
      · exact (h x hx).2⟩, rfl⟩

theorem placed_hi (he : IsWord e hi) (h : Placed lo hi vl vh vc true es vh b) : Placed lo hi vl vh vc st (e :: es) a b := by
  rcases h with ⟨h, rfl⟩ | ⟨h, rfl⟩ | ⟨h, ⟨_, h', _⟩ | ⟨_, rfl⟩⟩
  · exact .inl ⟨lastWord_cons h, rfl⟩
  · exact .inr (.inl ⟨lastWord_cons h, rfl⟩)
  · cases h'
  · exact .inr (.inl ⟨⟨by simp, [], e, es, rfl, he, fun x hx v hv => by
      simp only [List.mem_cons, List.not_mem_nil, or_false] at hv
      rcases hv with rfl | rfl
      · exact (h x hx).1
      · exact (h x hx).2⟩, rfl⟩)

theorem placed_center (he : IsWord e "center") (hl : "center" ≠ lo) (hh : "center" ≠ hi)
    (h : Placed lo hi vl vh vc st es (if st then a else vc) b) : Placed lo hi vl vh vc st (e :: es) a b := by
  rcases h with ⟨h, rfl⟩ | ⟨h, rfl⟩ | ⟨h, h'⟩
  · exact .inl ⟨lastWord_cons h, rfl⟩
  · exact .inr (.inl ⟨lastWord_cons h, rfl⟩)
  · refine .inr (.inr ⟨?_, ?_⟩)
    · intro x hx
      rcases List.mem_cons.1 hx with rfl | hx
      · exact ⟨fun h => hl (word_inj he h), fun h => hh (word_inj he h)⟩
      · exact h x hx
    · cases st with
      | false =>
        refine .inl ⟨⟨e, by simp, he⟩, rfl, ?_⟩
        rcases h' with ⟨_, _, h⟩ | ⟨_, h⟩ <;> exact h
      | true =>
        rcases h' with ⟨_, h, _⟩ | ⟨_, h⟩
        · cases h
        · exact .inr ⟨.inr rfl, h⟩

theorem placed_other {w : String} (he : IsWord e w) (hl : w ≠ lo) (hh : w ≠ hi) (hc : w ≠ "center")
    (h : Placed lo hi vl vh vc st es a b) : Placed lo hi vl vh vc st (e :: es) a b := by
  have hno : ∀ x ∈ [lo, hi, "center"], ¬ IsWord e x := by
    intro x hx hx'
    have := word_inj he hx'
    subst this
    simp only [List.mem_cons, List.not_mem_nil, or_false] at hx
    rcases hx with rfl | rfl | rfl
    · exact hl rfl
    · exact hh rfl
    · exact hc rfl
  rcases h with ⟨h, rfl⟩ | ⟨h, rfl⟩ | ⟨h, h'⟩
  · exact .inl ⟨lastWord_cons h, rfl⟩
  · exact .inr (.inl ⟨lastWord_cons h, rfl⟩)
  · refine .inr (.inr ⟨?_, ?_⟩)
    · intro x hx
      rcases List.mem_cons.1 hx with rfl | hx
      · exact ⟨hno _ (by simp), hno _ (by simp)⟩
      · exact h x hx
    · rcases h' with ⟨⟨x, hx, hx'⟩, h1, h2⟩ | ⟨h1 | h1, h2⟩
      · exact .inl ⟨⟨x, by simp [hx], hx'⟩, h1, h2⟩
      · refine .inr ⟨.inl fun x hx => ?_, h2⟩
        rcases List.mem_cons.1 hx with rfl | hx
        · exact hno _ (by simp)
        · exact h1 x hx
      · exact .inr ⟨.inr h1, h2⟩
end

/-- What `position` changes. -/
theorem position_ok {args : List Expr} {hs vs : Bool} {c c' : LegendConf φ} (h : legendPosition hs vs args c = (c', none)) :
    ArePlaces args ∧ c' = { c with horiz := c'.horiz, vert := c'.vert } ∧
      Placed "left" "right" HAlign.left .right .center hs args c.horiz c'.horiz ∧
      Placed "top" "bottom" VAlign.top .bottom .center vs args c.vert c'.vert := by
  induction args generalizing hs vs c with
  | nil =>
    rw [legendPosition] at h
    cases h
    exact ⟨fun _ h => by simp at h, rfl, placed_nil, placed_nil⟩
  | cons e es ih =>
    have hcons : ∀ {w : String}, w ∈ ["top", "bottom", "left", "right", "center"] → IsWord e w → ArePlaces es → ArePlaces (e :: es) := by
      intro w hw he hes x hx
      rcases List.mem_cons.1 hx with rfl | hx
      · exact ⟨w, hw, he⟩
      · exact hes x hx
    rw [legendPosition] at h
    have hword : ∀ {w : String}, isWord [e] w.toList = true → IsWord e w := by
      intro w hw
      obtain ⟨_, _, h, hw⟩ := none_word.1 hw
      cases h; exact hw
    split_ifs at h with h1 h2 h3 h4 h5
    · obtain ⟨i1, i2, i3, i4⟩ := ih h
      exact ⟨hcons (by simp) (hword h1) i1, i2, placed_other (hword h1) (by decide) (by decide) (by decide) i3,
        placed_lo (hword h1) i4⟩
    · obtain ⟨i1, i2, i3, i4⟩ := ih h
      exact ⟨hcons (by simp) (hword h2) i1, i2, placed_other (hword h2) (by decide) (by decide) (by decide) i3,
        placed_hi (hword h2) i4⟩
    · obtain ⟨i1, i2, i3, i4⟩ := ih h
      exact ⟨hcons (by simp) (hword h3) i1, i2, placed_lo (hword h3) i3,
        placed_other (hword h3) (by decide) (by decide) (by decide) i4⟩
    · obtain ⟨i1, i2, i3, i4⟩ := ih h
      exact ⟨hcons (by simp) (hword h4) i1, i2, placed_hi (hword h4) i3,
        placed_other (hword h4) (by decide) (by decide) (by decide) i4⟩
    any_goals (have hx := (Prod.mk.inj h).2; cases hx; done)
    all_goals
      rename_i ha hb
      obtain ⟨i1, i2, i3, i4⟩ := ih h
      refine ⟨hcons (by simp) (hword h5) i1, i2, placed_center (hword h5) (by decide) (by decide) ?_,
        placed_center (hword h5) (by decide) (by decide) ?_⟩
      · first | (rw [if_pos ha]; exact i3) | (rw [if_neg ha]; exact i3)
      · first | (rw [if_pos hb]; exact i4) | (rw [if_neg hb]; exact i4)

theorem placed_x {args : List Expr} {a b : HAlign} (h0 : ArePlaces args)
    (h : Placed "left" "right" HAlign.left .right .center false args a b) : PlaceX args a b := by
  refine ⟨h0, ?_⟩
  rcases h with h | h | ⟨h, ⟨h1, _, h2⟩ | ⟨h1 | h1, h2⟩⟩
  · exact .inl h
  · exact .inr (.inl h)
  · exact .inr (.inr ⟨h, .inl ⟨h1, h2⟩⟩)
  · exact .inr (.inr ⟨h, .inr ⟨h1, h2⟩⟩)
  · cases h1

theorem placed_y {args : List Expr} {a b : VAlign} (h0 : ArePlaces args)
    (h : Placed "top" "bottom" VAlign.top .bottom .center false args a b) : PlaceY args a b := by
  refine ⟨h0, ?_⟩
  rcases h with h | h | ⟨h, ⟨h1, _, h2⟩ | ⟨h1 | h1, h2⟩⟩
  · exact .inl h
  · exact .inr (.inl h)
  · exact .inr (.inr ⟨h, .inl ⟨h1, h2⟩⟩)
  · exact .inr (.inr ⟨h, .inr ⟨h1, h2⟩⟩)
  · cases h1

theorem eff_placeX : EffectOf (·.horiz) PlaceX (legendPosition false false : Handler (LegendConf φ) Fail) := by
  intro args s s₁ h
  obtain ⟨h1, _, h3, _⟩ := position_ok h
  exact placed_x h1 h3

theorem eff_placeY : EffectOf (·.vert) PlaceY (legendPosition false false : Handler (LegendConf φ) Fail) := by
  intro args s s₁ h
  obtain ⟨h1, _, _, h3⟩ := position_ok h
  exact placed_y h1 h3

theorem keeps_place {α : Type} {get : LegendConf φ → α} (hg : ∀ c h v, get { c with horiz := h, vert := v } = get c) :
    Keeps get (legendPosition false false) := by
  intro args s s₁ h
  obtain ⟨_, h2, _⟩ := position_ok h
  rw [h2, hg]

theorem acc_place : Accepts (legendPosition false false : Handler (LegendConf φ) Fail) ArePlaces := by
  intro args s
  constructor
  · rintro ⟨s', h⟩; exact (position_ok h).1
  · suffices ∀ hs vs (s : LegendConf φ), ArePlaces args → ∃ s', legendPosition hs vs args s = (s', none) from this _ _ s
    induction args with
    | nil => intro hs vs s _; exact ⟨s, by rw [legendPosition]⟩
    | cons e es ih =>
      intro hs vs s h
      obtain ⟨w, hw, he⟩ := h e (by simp)
      have hes : ArePlaces es := fun x hx => h x (by simp [hx])
      rw [position_step he]
      simp only [List.mem_cons, List.not_mem_nil, or_false] at hw
      rcases hw with rfl | rfl | rfl | rfl | rfl
      · exact ih _ _ _ hes
      · exact ih _ _ _ hes
      · exact ih _ _ _ hes
      · exact ih _ _ _ hes
      · exact ih _ _ _ hes

/-! ## The legend -/

macro "legend_open" : tactic => `(tactic| unfold legendOpts onPadding onMargins onBorders atAll at1 at2 at3 at4 legendItemAdd)

syntax "keepsq" term:max : tactic
macro_rules | `(tactic| keepsq $G) => `(tactic| first
  | exact keeps_field fun _ _ => rfl
  | exact keeps_part fun _ _ => rfl
  | exact keeps_place fun _ _ _ => rfl
  | exact keeps_inner $G (fun _ _ => rfl) (fun _ => rfl) (by keepsr))

syntax "effectq" : tactic
macro_rules | `(tactic| effectq) => `(tactic| first
  | leafr
  | exact effect_part id (fun _ _ => rfl) (fun _ => rfl) (by leafr)
  | ((with_reducible refine effect_here ?_ ?_); effectq; keepsr)
  | ((with_reducible refine effect_there ?_ ?_); keepsr; effectq))

theorem eff_switch {get : σ → Bool} {put : σ → Bool → σ} (h : ∀ s f, get (put s f) = f) :
    EffectOf get (sets IsSwitch) (field (fun args _ => readSwitch args) put) :=
  effect_field fun args s v hv => by show IsSwitch _ _; rw [h]; exact (C80_switch _ _).1 hv

theorem acc_switch {put : σ → Bool → σ} : Accepts (field (fun args _ => readSwitch args) put) (Has IsSwitch) :=
  accepts_field fun _ _ => exists_congr fun _ => C80_switch _ _

theorem eff_back (hp : E.palette ≠ []) {get : σ → Option Color} {put : σ → Color → σ} {d : Color} (h : ∀ s f, get (put s f) = some f) :
    EffectOf get (sets fun args v => ∃ k, IsColor E args k ∧ v = some k) (field (fun args _ => readColor E d args) put) :=
  effect_field fun args s v hv => ⟨v, (readColor_ok hp _ _ _).1 hv, h _ _⟩

theorem acc_back (hp : E.palette ≠ []) {put : σ → Color → σ} {d : Color} :
    Accepts (field (fun args _ => readColor E d args) put) (Has (IsColor E)) :=
  accepts_field fun _ _ => exists_congr fun _ => readColor_ok hp _ _ _

variable {s : PlotState φ}

theorem eff_item (hp : (s.env P).palette ≠ []) {get : σ → List (LegendItem φ)} {put : σ → LegendItem φ → σ}
    (h : ∀ c i, get (put c i) = get c ++ [i]) :
    EffectOf get (fun args x y => ∃ i, IsItem P (s.env P) (legendItemDefault s) args i ∧ y = x ++ [i])
      (field (fun args _ => legendItemConfigure P s args) put) :=
  effect_field fun args c v hv => by
    have := item_ok.1 hv
    exact ⟨v, ⟨(item_accepts hp _ _).1 ⟨_, this⟩, item_means hp this⟩, h _ _⟩

theorem acc_item (hp : (s.env P).palette ≠ []) {put : σ → LegendItem φ → σ} :
    Accepts (field (fun args _ => legendItemConfigure P s args) put) (Acceptable (itemTakes P (s.env P))) :=
  accepts_field fun _ _ => by
    rw [← item_accepts hp _ (legendItemDefault s)]
    exact exists_congr fun _ => item_ok

macro "legend_setting" G:term:max : tactic => `(tactic|
  repeat' (first
    | exact covers_nil
    | ((refine covers_skip ?_ ?_ ?_); (focus (simp; done)); (focus keepsq $G))
    | refine covers_act _ (by member) (by first
        | exact eff_placeX | exact eff_placeY
        | exact eff_switch fun _ _ => rfl
        | exact eff_back (by assumption) fun _ _ => rfl
        | exact eff_item (by assumption) fun _ _ => rfl
        | exact effect_part id (fun _ _ => rfl) (fun _ => rfl) (by leafr)
        | exact effect_part $G (fun _ _ => rfl) (fun _ => rfl) (by effectq)) ?_))

set_option hygiene false in
macro "legend_field" g:term:max G:term:max : tactic => `(tactic| (
  first
  | refine last_of_executed (get := $g) ?_ he
  | refine acts_of_executed (get := $g) ?_ he
  legend_open
  try unfold borderOf
  show Covers _ _ _
  try simp only [List.map_cons, List.map_nil, String.reduceAppend]
  legend_setting $G))

set_option maxHeartbeats 8000000 in
theorem legend_means (hp : (s.env P).palette ≠ []) {cmds : List Expr} {a b : LegendConf φ}
    (he : Executed (optTable (legendOpts P s)) cmds a b) :
    LegendMeans P (s.env P) (legendItemDefault s) cmds a b where
  horiz := by legend_field (·.horiz) id
  vert := by legend_field (·.vert) id
  rowPadding := by legend_field (·.rowPadding) id
  columnPadding := by legend_field (·.columnPadding) id
  flow := by legend_field (·.flow) id
  items := by legend_field (·.items) id
  paddingTop := by legend_field (·.padding.1) (·.1)
  paddingRight := by legend_field (·.padding.2.1) (·.2.1)
  paddingBottom := by legend_field (·.padding.2.2.1) (·.2.2.1)
  paddingLeft := by legend_field (·.padding.2.2.2) (·.2.2.2)
  marginTop := by legend_field (·.margins.1) (·.1)
  marginRight := by legend_field (·.margins.2.1) (·.2.1)
  marginBottom := by legend_field (·.margins.2.2.1) (·.2.2.1)
  marginLeft := by legend_field (·.margins.2.2.2) (·.2.2.2)
  borderTop := by legend_field (·.borders.1) (·.1)
  borderRight := by legend_field (·.borders.2.1) (·.2.1)
  borderBottom := by legend_field (·.borders.2.2.1) (·.2.2.1)
  borderLeft := by legend_field (·.borders.2.2.2) (·.2.2.2)
  background := by legend_field (·.background) id

theorem acc_four {h1 h2 h3 h4 : Handler σ Fail} {A : List Expr → Prop} (a1 : Accepts h1 A) (a2 : Accepts h2 A)
    (a3 : Accepts h3 A) (a4 : Accepts h4 A) : Accepts (callAll [h1, h2, h3, h4]) A :=
  accepts_cons a1 (accepts_cons a2 (accepts_cons a3 (accepts_one a4)))

macro "legend_acc" : tactic => `(tactic| first
  | exact acc_place | exact acc_switch | exact acc_item (by assumption) | exact acc_back (by assumption) | acc_opt
  | exact accepts_part (accepts_part (by first | acc_leaf | exact acc_borderStyle))
  | exact accepts_part (acc_four (accepts_part (by first | acc_leaf | exact acc_borderStyle))
      (accepts_part (by first | acc_leaf | exact acc_borderStyle)) (accepts_part (by first | acc_leaf | exact acc_borderStyle))
      (accepts_part (by first | acc_leaf | exact acc_borderStyle))))

theorem legend_accepts (hp : (s.env P).palette ≠ []) (cmds : List Expr) (a : LegendConf φ) :
    (∃ b, Executed (optTable (legendOpts P s)) cmds a b) ↔ Acceptable (legendTakes P (s.env P)) cmds := by
  refine accepted_iff ?_ (by simp [legendTakes]) cmds a
  legend_open
  unfold legendTakes
  repeat' (first | exact match_nil | refine match_cons (by legend_acc) ?_)

theorem legend_ok {args : List Expr} {c : LegendConf φ} :
    legendConfigure P s args = .ok c ↔ Executed (optTable (legendOpts P s)) args (legendDefault s) c := by
  rw [← walkRead_ok]
  unfold legendConfigure
  rcases walkRead (optTable (legendOpts P s)) args (legendDefault s) with ⟨c', _ | _⟩ <;> simp

/-- C90: the options of `legend`. -/
theorem C90_legend (P : PlotEnv φ) (s : PlotState φ) (hp : (s.env P).palette ≠ []) (args : List Expr) :
    Configured (legendConfigure P s args) (Acceptable (legendTakes P (s.env P)) args)
      (LegendMeans P (s.env P) (legendItemDefault s) args (legendDefault s)) (fun o c => c = o) := by
  constructor
  · intro hno c hc
    exact hno ((legend_accepts hp args _).1 ⟨c, legend_ok.1 hc⟩)
  · intro h
    obtain ⟨o, ho⟩ := (legend_accepts hp args (legendDefault s)).2 h
    refine ⟨o, legend_means hp ho, fun c => ⟨fun hc => ?_, ?_⟩⟩
    · have := legend_ok.2 ho
      rw [hc] at this
      cases this; rfl
    · rintro rfl; exact legend_ok.2 ho

/-- `(position top right)` and `(item (label "a"))` are accepted. -/
example (P : PlotEnv φ) (E : ReadEnv) : Acceptable (legendTakes P E)
    [.list [.literal "position".toList, .literal "top".toList, .literal "right".toList],
     .list [.literal "item".toList, .list [.literal "label".toList, .value "a".toList]]] := by
  intro c hc
  simp only [List.mem_cons, List.not_mem_nil, or_false] at hc
  rcases hc with rfl | rfl
  · refine ⟨"position", _, List.mem_cons_self .., rfl, ?_⟩
    intro e he
    simp only [argsOf, List.mem_cons, List.not_mem_nil, or_false] at he
    rcases he with rfl | rfl
    · exact ⟨"top", by simp, .inl rfl⟩
    · exact ⟨"right", by simp, .inl rfl⟩
  · refine ⟨"item", Acceptable (itemTakes P E), by simp [legendTakes], rfl, ?_⟩
    intro e he
    simp only [argsOf, List.mem_cons, List.not_mem_nil, or_false] at he
    subst he
    exact ⟨"label", _, List.mem_cons_of_mem _ (List.mem_cons_self ..), rfl, "a".toList, _, .inr rfl⟩

end Clip
