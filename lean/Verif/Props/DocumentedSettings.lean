import Verif.Spec.Documented
import Verif.Props.WholeDocument
import Verif.Props.Cli
/-!
# C48, C103: what a document may contain, and what the manual says about it
-/
set_option linter.unusedSimpArgs false
set_option maxRecDepth 8000
namespace Clip
noncomputable section
open Settings Pictures PlistSyntax Whole Commands Cmdline

variable {φ : Type}

/-- Everything a document can contain at its top level: settings, and the parts of a plot. -/
def plotWords : List String := ["class", "size", "dpi", "font", "font-size",
  "limit-x", "limit-x-min", "limit-x-max", "limit-y", "limit-y-min", "limit-y-max", "scale-x", "scale-y",
  "scale-x-padding", "scale-y-padding", "areas", "bars", "errorbars", "labels", "lines", "points", "polygons",
  "rectangles", "vectors", "margin", "margin-top", "margin-right", "margin-bottom", "margin-left", "axes", "axis",
  "grid", "background", "legend"]

namespace DocumentedSettings

theorem first_words (P : PlotEnv φ) : ∀ p ∈ first P, p.1 ∈ plotWords := by
  unfold first plotWords
  simp only [List.forall_mem_cons]
  refine ⟨?_, ?_, ?_, ?_, ?_, ?_, ?_, ?_, ?_, ?_, ?_, ?_, ?_, ?_, ?_, ?_, ?_, ?_, ?_, by simp⟩ <;> decide

theorem second_words (P : PlotEnv φ) : ∀ p ∈ second P, p.1 ∈ plotWords := by
  unfold second plotWords
  simp only [List.forall_mem_cons]
  refine ⟨?_, ?_, ?_, ?_, ?_, ?_, ?_, ?_, ?_, ?_, ?_, ?_, ?_, ?_, ?_, ?_, ?_, ?_, ?_, by simp⟩ <;> decide

theorem setting_words : ∀ w ∈ settingWords, w ∈ plotWords.map String.toList := by
  unfold settingWords plotWords
  simp only [List.forall_mem_cons]
  refine ⟨?_, ?_, ?_, ?_, ?_, by simp⟩ <;> decide

theorem reads_drop {t : List (String × Step φ)} {c : Expr} {n : Str} (hc : isCommand c = true) (hn : nameOf c = some n)
    (ht : ∀ p ∈ t, n ≠ String.toList p.1) (pre post : List Expr) (s s' : PlotState φ) :
    Reads t (pre ++ c :: post) s s' ↔ Reads t (pre ++ post) s s' := by
  induction pre generalizing s with
  | nil =>
    constructor
    · intro h
      cases h with
      | step m f h1 h2 h3 _ _ => rw [hn] at h3; exact absurd (Option.some.inj h3) (ht _ h2)
      | skip _ _ h => exact h
    · intro h
      exact .skip hc (fun p hp h3 => by rw [hn] at h3; exact ht p hp (Option.some.inj h3)) h
  | cons e es ih =>
    constructor
    · intro h
      cases h with
      | step m f h1 h2 h3 h4 h5 => exact .step m f h1 h2 h3 h4 ((ih _).1 h5)
      | skip h1 h2 h => exact .skip h1 h2 ((ih _).1 h)
    · intro h
      cases h with
      | step m f h1 h2 h3 h4 h5 => exact .step m f h1 h2 h3 h4 ((ih _).2 h5)
      | skip h1 h2 h => exact .skip h1 h2 ((ih _).2 h)

theorem textOf_doc {P : PlotEnv φ} {L L' : Layer φ} {src : Str} {toks : List PTok} {doc : List Expr}
    (ht : Text toks src) (hd : LaxDoc toks doc) : TextOf P L src L' ↔ DocumentOf P L doc L' := by
  constructor
  · rintro ⟨toks', doc', ht', hd', h⟩
    have h1 := (C46_plist_accepts_iff_partial src doc (src.length + 2) (Nat.le_refl _)).1.2
      ((laxDoc_text src doc).2 ⟨toks, ht, hd⟩)
    have h2 := (C46_plist_accepts_iff_partial src doc' (src.length + 2) (Nat.le_refl _)).1.2
      ((laxDoc_text src doc').2 ⟨toks', ht', hd'⟩)
    rw [h1] at h2
    cases h2
    exact h
  · exact fun h => ⟨toks, doc, ht, hd, h⟩

end DocumentedSettings

open DocumentedSettings

/-- C48 (violated by the code): in the text of a plot, a part with a name that nothing in the program knows is accepted, and
the picture is the same as without it. -/
theorem C48_text_ignored (P : PlotEnv φ) (hT : LevelsOfChars P.text)
    (hn : P.stod "solid".toList = none ∧ P.stod "dash".toList = none) (L : Layer φ) (hp : L.palette ≠ [])
    (src src' : Str) (toks toks' : List PTok) (pre post : List Expr) (c : Expr) (n : String)
    (ht : Text toks src) (hd : LaxDoc toks (pre ++ c :: post)) (ht' : Text toks' src') (hd' : LaxDoc toks' (pre ++ post))
    (hc : nameOf c = some n.toList) (hw : n ∉ plotWords) (hcl : ∀ d ∈ pre ++ post, nameOf d ≠ some "class".toList) :
    evalAll P L src = evalAll P L src' := by
  have hcmd : isCommand c = true := laxDoc_commands hd c (by simp)
  have hset : isSetting c = false := by
    unfold isSetting
    rw [hc]
    simp only [decide_eq_false_iff_not]
    intro h
    obtain ⟨w, h1, h2⟩ := List.mem_map.1 (setting_words _ h)
    exact hw (String.toList_inj.1 h2 ▸ h1)
  have hk : ∀ kind page, PageMeans P.text P.stod ((pre ++ post).filter isSetting) L page kind → kind = "plot".toList := by
    rintro kind page ⟨-, h, -⟩
    have : ((pre ++ post).filter isSetting).filter (fun c => nameOf c == some "class".toList) = [] := by
      rw [List.filter_eq_nil_iff]
      intro d hd
      have := hcl d (List.mem_filter.1 hd).1
      simpa using this
    unfold Final lastArgs at h
    rw [this] at h
    exact h
  have hf : (pre ++ c :: post).filter isSetting = (pre ++ post).filter isSetting := by
    simp [List.filter_append, List.filter_cons, hset]
  have hplot : ∀ page L', PlotOf P (pre ++ c :: post) page L' ↔ PlotOf P (pre ++ post) page L' := by
    intro page L'
    unfold PlotOf
    have a := fun s s' => reads_drop (t := first P) hcmd hc
      (fun p hp h => hw (String.toList_inj.1 h ▸ first_words P p hp)) pre post s s'
    have b := fun s s' => reads_drop (t := second P) hcmd hc
      (fun p hp h => hw (String.toList_inj.1 h ▸ second_words P p hp)) pre post s s'
    simp only [a, b]
  have key : ∀ L', evalAll P L src = some L' ↔ evalAll P L src' = some L' := by
    intro L'
    rw [C98_text P hT hn L hp, C98_text P hT hn L hp, textOf_doc ht hd, textOf_doc ht' hd']
    unfold DocumentOf
    rw [hf]
    constructor
    · rintro ⟨page, kind, hm, h⟩
      obtain rfl := hk kind page hm
      rcases h with ⟨-, h⟩ | ⟨h, -⟩
      · exact ⟨page, _, hm, .inl ⟨rfl, (hplot _ _).1 h⟩⟩
      · exact absurd h (by decide)
    · rintro ⟨page, kind, hm, h⟩
      obtain rfl := hk kind page hm
      rcases h with ⟨-, h⟩ | ⟨h, -⟩
      · exact ⟨page, _, hm, .inl ⟨rfl, (hplot _ _).2 h⟩⟩
      · exact absurd h (by decide)
  cases h : evalAll P L src with
  | some L' => exact ((key L').1 h).symm
  | none =>
    cases h' : evalAll P L src' with
    | none => rfl
    | some L' => rw [(key L').2 h'] at h; cases h

/-- C103 (violated by the code): of the documented options of documents, these have no effect in a plot, whatever is given,
and neither has `set`: the picture is the same as without them. -/
theorem C103_document_ignored (P : PlotEnv φ) (hT : LevelsOfChars P.text)
    (hn : P.stod "solid".toList = none ∧ P.stod "dash".toList = none) (L : Layer φ) (hp : L.palette ≠ [])
    (src src' : Str) (toks toks' : List PTok) (pre post args : List Expr) (n : String)
    (hw : n ∈ ["set", "width", "height", "font-defaults", "background-color", "foreground-color", "color-palette",
      "text-language", "text-script"])
    (ht : Text toks src) (hd : LaxDoc toks (pre ++ cmd n args :: post))
    (ht' : Text toks' src') (hd' : LaxDoc toks' (pre ++ post)) (hcl : ∀ d ∈ pre ++ post, nameOf d ≠ some "class".toList) :
    (n = "set" ∨ n ∈ Documented.document) ∧ evalAll P L src = evalAll P L src' := by
  constructor
  · clear * - hw
    simp only [List.mem_cons, List.not_mem_nil, or_false] at hw
    rcases hw with rfl | rfl | rfl | rfl | rfl | rfl | rfl | rfl | rfl <;> simp [Documented.document]
  · refine C48_text_ignored P hT hn L hp src src' toks toks' pre post (cmd n args) n ht hd ht' hd' rfl ?_ hcl
    clear * - hw
    simp only [List.mem_cons, List.not_mem_nil, or_false] at hw
    rcases hw with rfl | rfl | rfl | rfl | rfl | rfl | rfl | rfl | rfl <;> decide

/-- C103 (violated by the code): the manual writes documents with parentheses, as in `(set width 1920px)`, and comments after
`;;`.  No text that starts like this is accepted. -/
theorem C103_parentheses (P : PlotEnv φ) (L : Layer φ) (blanks rest : Str)
    (hb : ∀ c ∈ blanks, c ∈ [' ', '\n', '\t', '\r']) (c : Char) (hc : c = '(' ∨ c = ';') :
    evalAll P L (blanks ++ c :: rest) = none := by
  have tok : ∃ t ts, plistTokens (blanks ++ c :: rest) = t :: ts ∧ (t = .lparen ∨ t = .semicolon) := by
    induction blanks with
    | nil =>
      rcases hc with rfl | rfl
      · exact ⟨.lparen, plistTokens rest, by rw [List.nil_append, plistTokens]; simp [isBlank], .inl rfl⟩
      · exact ⟨.semicolon, plistTokens rest, by rw [List.nil_append, plistTokens]; simp [isBlank], .inr rfl⟩
    | cons b bs ih =>
      obtain ⟨t, ts, h, k⟩ := ih fun d hd => hb d (List.mem_cons_of_mem _ hd)
      refine ⟨t, ts, ?_, k⟩
      rw [List.cons_append, plistTokens, if_pos, h]
      have := hb b (by simp)
      simp only [List.mem_cons, List.not_mem_nil, or_false] at this
      rcases this with rfl | rfl | rfl | rfl <;> rfl
  obtain ⟨t, ts, h, k⟩ := tok
  unfold evalAll evalDocument
  rw [((C46_plist_accepts_iff_partial _ [] _ (Nat.le_refl _)).2).2]
  rintro ⟨es, hl⟩
  rw [h] at hl
  cases hl with
  | prop hn => rcases k with rfl | rfl <;> cases hn
  | block hn => rcases k with rfl | rfl <;> cases hn

/-- C103 (violated by the code): the manual's options `--in`, `--out`, `--stdin`, `--stdout`, `--format` and `--font-defaults`
of the command line program are refused, with or without a value, wherever they stand among other options. -/
theorem C103_command_line {Ctx : Type} (env : CliEnv Ctx) (items : List Item) (hv : ∀ it ∈ items, it.Valid cliFlags)
    (n : String) (hn : n ∈ ["in", "out", "stdin", "stdout", "format", "font-defaults"]) (value : Str)
    (h : value = [] ∨ ∃ v, value = '=' :: v) (rest : List Str) :
    n ∈ Documented.commandLine ∧
    cliMain env (items.flatMap (Item.args cliFlags) ++ ('-' :: '-' :: (n.toList ++ value)) :: rest) = ⟨1, [], none⟩ := by
  simp only [List.mem_cons, List.not_mem_nil, or_false] at hn
  refine ⟨by rcases hn with rfl | rfl | rfl | rfl | rfl | rfl <;> simp [Documented.commandLine], ?_⟩
  apply C74_invalid
  refine (C45_unknown cliFlags cliFlags_good items hv rest).1 (n.toList ++ value) ?_ ?_
  · rcases hn with rfl | rfl | rfl | rfl | rfl | rfl <;> exact fun h => absurd (List.append_eq_nil_iff.1 h).1 (by decide)
  · have cut : (n.toList ++ value).takeWhile (· != '=') = n.toList := by
      have h1 : ∀ c ∈ n.toList, (c != '=') = true := by
        rcases hn with rfl | rfl | rfl | rfl | rfl | rfl <;> decide
      rw [List.takeWhile_append_of_pos h1]
      rcases h with rfl | ⟨v, rfl⟩ <;> simp
    rw [cut]
    rcases hn with rfl | rfl | rfl | rfl | rfl | rfl <;> decide

/-- A text with an unknown part: `wdith: 3;` and nothing. -/
example : ∃ toks, Text toks ['w', 'd', 'i', 't', 'h', ':', ' ', '3', ';'] ∧ LaxDoc toks ([] ++ cmd "wdith" [.literal ['3']] :: []) ∧ "wdith" ∉ plotWords :=
  ⟨[.str ['w', 'd', 'i', 't', 'h'], .colon, .str ['3'], .semicolon],
    .tok (w := ['w', 'd', 'i', 't', 'h']) (.str (by decide) (by decide))
      (.tok (w := [':']) .colon (.blank (by simp) (.tok (w := ['3']) (.str (by decide) (by decide))
        (.tok (w := [';']) .semicolon .nil (by intro h; cases h)) (by decide))) (by intro h; cases h)) (by decide),
    .prop (ts := [.str ['3']]) .str (.inl (.word .nil)) .nil, by decide⟩

end
end Clip
