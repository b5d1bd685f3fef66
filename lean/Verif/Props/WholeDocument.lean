import Verif.Props.WholePlot
import Verif.Props.EndToEnd
import Verif.Spec.WholeDocument
import Verif.Lemmas.PlistText
set_option linter.unusedSimpArgs false
/-!
# C98: from the text of a document to its picture
-/
namespace Clip
open Commands Settings Drawing Pictures PlotSpec PlistSyntax Whole
variable {φ : Type}

theorem laxDoc_commands {ts es} (h : LaxDoc ts es) : ∀ c ∈ es, isCommand c = true := by
  induction h with
  | nil => simp
  | prop _ _ _ ih => exact List.forall_mem_cons.2 ⟨rfl, ih⟩
  | block _ _ _ _ ih => exact List.forall_mem_cons.2 ⟨rfl, ih⟩

theorem isKnown_setting (T : TextEnv φ) (stod : Str → Option (ℝ × Nat)) :
    isKnown (evalTable (docSettings T stod)) = isSetting := by
  funext c
  rw [Bool.eq_iff_iff]
  unfold isSetting
  rcases c with (_ | ⟨(s | s | l), args⟩) | _ | _ <;> simp only [isKnown, nameOf, Expr.isValue, Expr.getValue, Bool.true_and,
    Bool.false_and, Bool.false_eq_true, decide_eq_true_eq]
  all_goals exact evalTable_known T stod _

theorem trailing_known {σ ε : Type} (fns : HandlerMap σ ε) (l : List Expr) : ∀ c ∈ trailing fns l, isKnown fns c = true := by
  induction l with
  | nil => simp [trailing]
  | cons e es ih =>
    rw [trailing]
    split
    · exact ih
    · split
      · rename_i h; exact List.all_eq_true.1 h
      · exact ih

/-- Nothing follows the last unknown command exactly if there is none or it is the last. -/
theorem trailing_nil {σ ε : Type} (fns : HandlerMap σ ε) (l : List Expr) :
    trailing fns l = [] ↔ (∀ c ∈ l, isKnown fns c = true) ∨ ∀ c ∈ l.getLast?, isKnown fns c = false := by
  induction l with
  | nil => simp [trailing]
  | cons e es ih =>
    rw [trailing]
    by_cases he : isKnown fns e = true
    · rw [if_pos he, ih]
      cases es with
      | nil => simp [he]
      | cons f fs => simp [he, List.getLast?_cons]
    · rw [if_neg he]
      have he' : isKnown fns e = false := by simpa using he
      by_cases ha : es.all (isKnown fns) = true
      · rw [if_pos ha]
        cases es with
        | nil => simp [he']
        | cons f fs =>
          have h2 : ¬ ∀ c ∈ (e :: f :: fs).getLast?, isKnown fns c = false := by
            intro h
            have := h _ (by rw [List.getLast?_eq_getLast_of_ne_nil (by simp)]; rfl)
            rw [List.getLast_cons (by simp)] at this
            have h3 := List.all_eq_true.1 ha _ (List.getLast_mem (l := f :: fs) (by simp))
            rw [h3] at this
            cases this
          simp only [List.cons_ne_nil, false_iff, not_or]
          exact ⟨fun h => he (h e (by simp)), h2⟩
      · rw [if_neg ha, ih]
        have h1 : ¬ ∀ c ∈ es, isKnown fns c = true := fun h => ha (List.all_eq_true.2 h)
        have h2 : ¬ ∀ c ∈ e :: es, isKnown fns c = true := fun h => he (h e (by simp))
        rw [or_iff_right h1, or_iff_right h2]
        cases es with
        | nil => simp at ha
        | cons f fs => simp [List.getLast?_cons]

/-- The evaluation of a document, for a parsed one. -/
theorem evalExpr_iff (T : TextEnv φ) (stod : Str → Option (ℝ × Nat)) (modules : Str → Option (List Expr → Layer φ → Layer φ × Option Fail))
    (doc : List Expr) (hc : ∀ c ∈ doc, isCommand c = true) (L L' : Layer φ) :
    evalExpr (docSettings T stod) modules doc L = (L', .ok ()) ↔
      ∃ page kind m, PageMeans T stod (doc.filter isSetting) L page kind ∧ kind ≠ [] ∧ modules kind = some m ∧
        m (doc.filter (fun c => !isSetting c) ++ trailing (evalTable (docSettings T stod)) doc) page = (L', none) := by
  constructor
  · intro h
    have hx : ∃ s', Executed (evalTable (docSettings T stod)) (doc.filter isSetting) (L, "plot".toList) s' := by
      cases hw : walkMap (evalTable (docSettings T stod)) (some ([], [])) doc (L, "plot".toList) with
      | mk t r =>
        cases r with
        | error e => simp only [evalExpr, walkUnparsed, hw] at h; cases h
        | ok r =>
          have := (walk_unparsed_ok _ _ _ _ _ _ hw).2
          rw [isKnown_setting] at this
          exact ⟨_, this⟩
    obtain ⟨⟨page, kind⟩, he⟩ := hx
    have hp := (C86_settings _ L page kind).1 he
    unfold evalExpr at h
    rw [C09_passthrough_exact _ doc _ _ hc (by rw [isKnown_setting]; exact he), isKnown_setting] at h
    simp only at h
    split at h
    · cases h
    · rename_i hne
      cases hm : modules kind with
      | none => rw [hm] at h; cases h
      | some m =>
        rw [hm] at h
        simp only at h
        refine ⟨page, kind, m, hp, hne, hm, ?_⟩
        rcases hr : m (doc.filter (fun c => !isSetting c) ++ trailing (evalTable (docSettings T stod)) doc) page with ⟨M, _ | e⟩
        · rw [hr] at h; cases h; rfl
        · rw [hr] at h; cases h
  · rintro ⟨page, kind, m, hp, hne, hm, h⟩
    unfold evalExpr
    rw [C09_passthrough_exact _ doc _ _ hc (by rw [isKnown_setting]; exact (C86_settings _ L page kind).2 hp), isKnown_setting]
    simp only [hne, hm, if_false, h]

/-- Settings of the document are not parts of a plot. -/
theorem reads_settings {t : List (String × Step φ)} (ht : ∀ p ∈ t, String.toList p.1 ∉ settingWords) (l : List Expr)
    (s s' : PlotState φ) :
    Reads t l s s' ↔ (∀ c ∈ l, isCommand c = true) ∧ Reads t (l.filter fun c => !isSetting c) s s' := by
  induction l generalizing s with
  | nil => simp
  | cons e es ih =>
    have no : ∀ n, (∃ f, (n, f) ∈ t) → nameOf e = some (String.toList n) → isSetting e = false := by
      rintro n ⟨f, hf⟩ hn
      unfold isSetting
      rw [hn]
      simpa using ht _ hf
    cases hs : isSetting e with
    | true =>
      rw [List.filter_cons_of_neg (by simp [hs])]
      constructor
      · intro h
        cases h with
        | step n f h1 h2 h3 _ _ => rw [no n ⟨f, h2⟩ h3] at hs; cases hs
        | skip h1 _ h => exact ⟨List.forall_mem_cons.2 ⟨h1, ((ih s).1 h).1⟩, ((ih s).1 h).2⟩
      · rintro ⟨h1, h2⟩
        rw [List.forall_mem_cons] at h1
        refine .skip h1.1 ?_ ((ih s).2 ⟨h1.2, h2⟩)
        intro p hp hn
        rw [no p.1 ⟨p.2, hp⟩ hn] at hs; cases hs
    | false =>
      rw [List.filter_cons_of_pos (by simp [hs])]
      constructor
      · intro h
        cases h with
        | step n f h1 h2 h3 h4 h5 =>
          exact ⟨List.forall_mem_cons.2 ⟨h1, ((ih _).1 h5).1⟩, .step n f h1 h2 h3 h4 ((ih _).1 h5).2⟩
        | skip h1 h2 h => exact ⟨List.forall_mem_cons.2 ⟨h1, ((ih s).1 h).1⟩, .skip h1 h2 ((ih s).1 h).2⟩
      · rintro ⟨h1, h⟩
        rw [List.forall_mem_cons] at h1
        cases h with
        | step n f h1' h2 h3 h4 h5 => exact .step n f h1' h2 h3 h4 ((ih _).2 ⟨h1.2, h5⟩)
        | skip h1' h2 h => exact .skip h1' h2 ((ih s).2 ⟨h1.2, h⟩)

theorem plotOf_settings (P : PlotEnv φ) (l : List Expr) (L L' : Layer φ) :
    PlotOf P l L L' ↔ (∀ c ∈ l, isCommand c = true) ∧ PlotOf P (l.filter fun c => !isSetting c) L L' := by
  have h1 : ∀ p ∈ first P, String.toList p.1 ∉ settingWords := by
    unfold first settingWords
    simp only [List.forall_mem_cons]
    refine ⟨?_, ?_, ?_, ?_, ?_, ?_, ?_, ?_, ?_, ?_, ?_, ?_, ?_, ?_, ?_, ?_, ?_, ?_, ?_, by simp⟩ <;> decide
  have h2 : ∀ p ∈ second P, String.toList p.1 ∉ settingWords := by
    unfold second settingWords
    simp only [List.forall_mem_cons]
    refine ⟨?_, ?_, ?_, ?_, ?_, ?_, ?_, ?_, ?_, ?_, ?_, ?_, ?_, ?_, ?_, ?_, ?_, ?_, ?_, by simp⟩ <;> decide
  unfold PlotOf
  simp only [reads_settings h1 l, reads_settings h2 l]
  constructor
  · rintro ⟨s, s', ⟨hc, a⟩, ⟨-, b⟩, e⟩; exact ⟨hc, s, s', a, b, e⟩
  · rintro ⟨hc, s, s', a, b, e⟩; exact ⟨s, s', ⟨hc, a⟩, ⟨hc, b⟩, e⟩

theorem forall₂_mem {α β : Type} {R : α → β → Prop} {l : List α} {m : List β} (h : List.Forall₂ R l m) {a : α} (ha : a ∈ l) :
    ∃ b, R a b := by
  induction h with
  | nil => cases ha
  | cons hab _ ih =>
    rcases List.mem_cons.1 ha with rfl | ha
    · exact ⟨_, hab⟩
    · exact ih ha

theorem draws_not_setting {T : TextEnv φ} {stod : Str → Option (ℝ × Nat)} {L : Layer φ} {c : Expr} {shapes : List DrawCmd}
    (h : Pictures.Draws T stod L c shapes) (hs : isSetting c = true) : False := by
  unfold isSetting at hs
  cases h with
  | rectangle hn _ _ => rw [hn] at hs; revert hs; decide
  | text hn _ _ _ => rw [hn] at hs; revert hs; decide

/-- C98: a text is accepted exactly if it describes a picture, and what is on the page then is that picture.  The text is
any sequence of characters. -/
theorem C98_text (P : PlotEnv φ) (hT : LevelsOfChars P.text)
    (hn : P.stod "solid".toList = none ∧ P.stod "dash".toList = none) (L : Layer φ) (hp : L.palette ≠ []) (src : Str)
    (L' : Layer φ) : evalAll P L src = some L' ↔ TextOf P L src L' := by
  have step : ∀ doc, (∀ c ∈ doc, isCommand c = true) →
      (evalExpr (docSettings P.text P.stod) (docModules P.text P.stod (plotModule P)) doc L = (L', .ok ()) ↔
        DocumentOf P L doc L') := by
    intro doc hc
    rw [evalExpr_iff _ _ _ doc hc]
    unfold DocumentOf
    refine exists_congr fun page => exists_congr fun kind => ?_
    have pal : PageMeans P.text P.stod (doc.filter isSetting) L page kind → page.palette ≠ [] := by
      rintro ⟨_, _, _, _, _, _, _, h, _⟩
      rw [h]; exact hp
    have un : (doc.filter (fun c => !isSetting c) ++ trailing (evalTable (docSettings P.text P.stod)) doc).filter
        (fun c => !isSetting c) = doc.filter (fun c => !isSetting c) := by
      rw [List.filter_append, List.filter_filter]
      simp only [Bool.and_self]
      refine (congrArg _ (List.filter_eq_nil_iff.2 ?_)).trans (List.append_nil _)
      intro c h
      have := trailing_known _ _ c h
      rw [isKnown_setting] at this
      simp [this]
    have hall : ∀ c ∈ doc.filter (fun c => !isSetting c) ++ trailing (evalTable (docSettings P.text P.stod)) doc,
        isCommand c = true := by
      intro c h
      rcases List.mem_append.1 h with h | h
      · exact hc c (List.mem_filter.1 h).1
      · have := trailing_known _ _ c h
        rcases c with (_ | ⟨(s | s | l), args⟩) | _ | _ <;> simp [isKnown, Expr.isValue, isCommand] at this ⊢
    constructor
    · rintro ⟨m, hpg, hne, hm, h⟩
      refine ⟨hpg, ?_⟩
      unfold docModules at hm
      split at hm
      · rename_i hk
        cases hm
        right
        obtain ⟨shapes, h1, h2⟩ := (C81_module P.text hT P.stod page L' (pal hpg) hn _).1 h
        have htr : trailing (evalTable (docSettings P.text P.stod)) doc = [] := by
          rw [List.eq_nil_iff_forall_not_mem]
          intro c hcm
          have hk := trailing_known _ _ c hcm
          rw [isKnown_setting] at hk
          obtain ⟨sh, hd⟩ := forall₂_mem h1 (List.mem_append_right _ hcm)
          exact draws_not_setting hd hk
        refine ⟨hk, ?_, shapes, ?_, h2⟩
        · have := (trailing_nil _ _).1 htr
          rwa [isKnown_setting] at this
        · rwa [htr, List.append_nil] at h1
      · split at hm
        · rename_i hk
          cases hm
          left
          refine ⟨hk, ?_⟩
          rw [plotOf_settings]
          have := (C97_plot P hT _ page L' (pal hpg)).1 h
          rw [plotOf_settings, un] at this
          exact ⟨hc, this.2⟩
        · cases hm
    · rintro ⟨hpg, ⟨rfl, h⟩ | ⟨rfl, hl, shapes, h1, h2⟩⟩
      · refine ⟨plotModule P, hpg, by decide, ?_, ?_⟩
        · unfold docModules; rw [if_neg (by decide), if_pos (by decide)]
        · rw [C97_plot P hT _ page L' (pal hpg), plotOf_settings, un]
          rw [plotOf_settings] at h
          exact ⟨hall, h.2⟩
      · refine ⟨drawModule P.text P.stod, hpg, by decide, ?_, ?_⟩
        · unfold docModules; rw [if_pos (by decide)]
        · have htr : trailing (evalTable (docSettings P.text P.stod)) doc = [] := by
            rw [trailing_nil, isKnown_setting]; exact hl
          rw [htr, List.append_nil]
          exact (C81_module P.text hT P.stod page L' (pal hpg) hn _).2 ⟨shapes, h1, h2⟩
  unfold evalAll evalDocument TextOf
  have parse := fun es => (C46_plist_accepts_iff_partial src es (src.length + 2) (Nat.le_refl _)).1
  constructor
  · intro h
    rcases hps : plistParse (src.length + 2) src with _ | _ | doc
    · rw [hps] at h; cases h
    · rw [hps] at h; cases h
    · obtain ⟨ts, h1, h2⟩ := (laxDoc_text src doc).1 ((parse doc).1 hps)
      refine ⟨ts, doc, h1, h2, (step doc (laxDoc_commands h2)).1 ?_⟩
      rw [hps] at h
      simp only at h
      split at h
      · rename_i hx; rw [hx]; simpa using h
      · cases h
  · rintro ⟨ts, doc, h1, h2, h3⟩
    rw [(parse doc).2 ((laxDoc_text src doc).2 ⟨ts, h1, h2⟩)]
    simp only
    rw [(step doc (laxDoc_commands h2)).2 h3]

end Clip
