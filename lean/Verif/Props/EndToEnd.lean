import Verif.Props.Document
import Verif.Props.Plist
import Verif.Props.Svg
set_option linter.unusedSimpArgs false
/-! Property theorem C87: from the text of a document to the shapes of the SVG file. -/
namespace Clip
open Commands Settings Drawing Pictures PlistSyntax Xml SvgDoc
variable {φ : Type}

/-- The names of the document settings. -/
def settingNames : List Str := ["class".toList, "size".toList, "dpi".toList, "font".toList, "font-size".toList]

theorem evalTable_known (T : TextEnv φ) (stod : Str → Option (ℝ × Nat)) (n : Str) :
    (evalTable (docSettings T stod) n).isSome = true ↔ n ∈ settingNames := by
  unfold evalTable settingNames
  obtain ⟨h1, h2, h3, h4⟩ := docSettings_at (T := T) (stod := stod)
  simp only [List.mem_cons, List.not_mem_nil, or_false]
  split
  · rename_i h; simp only [Option.isSome_some, true_iff]; exact .inl h
  · rename_i hc
    split
    · rename_i h
      simp only [Option.isSome_map]
      rcases h with rfl | rfl | rfl | rfl
      · rw [h1]; simp
      · rw [h2]; simp
      · rw [h3]; simp
      · rw [h4]; simp
    · rename_i h
      simp only [Option.isSome_none, Bool.false_eq_true, false_iff, not_or]
      simp only [not_or] at h
      exact ⟨hc, h⟩

/-- A walk over known commands followed by others succeeds only if the known ones are executed. -/
theorem walkMap_known {σ ε : Type} {fns : HandlerMap σ ε} {acc : Option (List Expr × List Expr)} {known rest : List Expr} {s t : σ}
    {r : Option (List Expr × List Expr)} (hk : ∀ c ∈ known, isCommand c = true ∧ isKnown fns c = true)
    (h : walkMap fns acc (known ++ rest) s = (t, .ok r)) : ∃ s', Executed fns known s s' := by
  induction known generalizing s with
  | nil => exact ⟨s, .nil s⟩
  | cons c cs ih =>
    obtain ⟨hc, hk'⟩ := hk c (by simp)
    cases c with
    | literal _ => simp [isCommand] at hc
    | value _ => simp [isCommand] at hc
    | list l =>
      cases l with
      | nil => simp [isCommand] at hc
      | cons n args =>
        simp only [isCommand] at hc
        simp only [isKnown, hc, Bool.true_and, Option.isSome_iff_exists] at hk'
        obtain ⟨f, hf⟩ := hk'
        simp only [List.cons_append, walkMap, hc, if_true, hf] at h
        split at h
        · rename_i s₁ hs
          obtain ⟨s', he⟩ := ih (fun c hc => hk c (by simp [hc])) h
          exact ⟨s', .cons hc hf hs he⟩
        · simp at h

theorem newLayer_palette : (newLayer φ).palette ≠ [] := by
  unfold newLayer
  simp only [colorPaletteDefault]
  have h : colorPalettes.lookup ['f', 'n', 'o', 'r', 'd'] ≠ none ∧ colorPalettes.lookup ['f', 'n', 'o', 'r', 'd'] ≠ some [] := by
    decide
  cases hl : colorPalettes.lookup ['f', 'n', 'o', 'r', 'd'] with
  | none => exact absurd hl h.1
  | some l =>
    rw [Option.map_some, Option.getD_some]
    intro hm
    rw [List.map_eq_nil_iff] at hm
    exact h.2 (hm ▸ hl)

/-- C87: a document in the plist notation that begins with its settings, selects the draw module and goes on with drawing
commands: it is accepted exactly if every setting and every drawing command means something, and the picture then has the
page that the settings describe and on it exactly the shapes that the commands describe, in the order of the commands. -/
theorem C87_document_partial (T : TextEnv φ) (hT : LevelsOfChars T) (stod : Str → Option (ℝ × Nat))
    (hn : stod "solid".toList = none ∧ stod "dash".toList = none) (plot : List Expr → Layer φ → Layer φ × Option Fail)
    (ts : List PTok) (set cmds : List Expr) (src : Str) (hd : Doc ts (set ++ cmds)) (ht : Text ts src)
    (hset : ∀ c ∈ set, ∃ n ∈ settingNames, nameOf c = some n)
    (hcmds : ∀ c ∈ cmds, ∃ n, n ∉ settingNames ∧ nameOf c = some n)
    (hclass : Final IsText "class".toList set "plot".toList "draw".toList) (L' : Layer φ) :
    evalDocument T stod plot (newLayer φ) src = some L' ↔
      ∃ page shapes, PageMeans T stod set (newLayer φ) page "draw".toList ∧
        List.Forall₂ (Draws T stod page) cmds shapes ∧ L' = draw page shapes.flatten := by
  have hk : ∀ c ∈ set, isCommand c = true ∧ isKnown (evalTable (docSettings T stod)) c = true := by
    intro c hc
    obtain ⟨w, hw, h1⟩ := hset c hc
    obtain ⟨n, args, rfl, hv, rfl⟩ := nameOf_some h1
    exact ⟨hv, by simp only [isKnown, hv, Bool.true_and]; exact (evalTable_known T stod _).2 hw⟩
  have hu : ∀ c ∈ cmds, isCommand c = true ∧ isKnown (evalTable (docSettings T stod)) c = false := by
    intro c hc
    obtain ⟨w, hw, h1⟩ := hcmds c hc
    obtain ⟨n, args, rfl, hv, rfl⟩ := nameOf_some h1
    refine ⟨hv, ?_⟩
    simp only [isKnown, hv, Bool.true_and]
    rw [← Bool.not_eq_true, evalTable_known T stod]
    exact hw
  have hm : docModules T stod plot "draw".toList = some (drawModule T stod) := by
    unfold docModules; rw [if_pos (by decide)]
  have run : ∀ (page : Layer φ), Executed (evalTable (docSettings T stod)) set (newLayer φ, "plot".toList) (page, "draw".toList) →
      (evalDocument T stod plot (newLayer φ) src = some L' ↔ drawModule T stod cmds page = (L', none)) := by
    intro page he
    unfold evalDocument
    rw [C06_plist_accepts ts _ src hd ht _ le_rfl]
    simp only
    rw [C44_eval_module_partial (docSettings T stod) (docModules T stod plot) set cmds _ _ _ he hu _ (by decide) hm]
    rcases drawModule T stod cmds page with ⟨M, _ | e⟩ <;> simp
  have pal : ∀ page : Layer φ, PageMeans T stod set (newLayer φ) page "draw".toList → page.palette ≠ [] := by
    rintro page ⟨_, _, _, _, _, _, _, h, _⟩
    rw [h]; exact newLayer_palette
  constructor
  · intro h
    have hx : ∃ s', Executed (evalTable (docSettings T stod)) set (newLayer φ, "plot".toList) s' := by
      unfold evalDocument at h
      rw [C06_plist_accepts ts _ src hd ht _ le_rfl] at h
      simp only [evalExpr, walkUnparsed] at h
      cases hw : walkMap (evalTable (docSettings T stod)) (some ([], [])) (set ++ cmds) (newLayer φ, "plot".toList) with
      | mk t r =>
        cases r with
        | error e => rw [hw] at h; cases h
        | ok r => exact walkMap_known hk hw
    obtain ⟨⟨page, name⟩, he⟩ := hx
    have hp := (C86_settings set (newLayer φ) page name).1 he
    have e : name = "draw".toList :=
      Final.unique (fun args a b => isText_unique (args := args) (a := a) (b := b)) hp.2.1 hclass
    subst e
    obtain ⟨shapes, h1, h2⟩ := (C81_module T hT stod page L' (pal page hp) hn cmds).1 ((run page he).1 h)
    exact ⟨page, shapes, hp, h1, h2⟩
  · rintro ⟨page, shapes, hp, h1, h2⟩
    exact (run page ((C86_settings _ _ _ _).2 hp)).2 ((C81_module T hT stod page L' (pal page hp) hn cmds).2 ⟨shapes, h1, h2⟩)

/-- C87: the SVG file of such a document shows exactly the described shapes, in their order, on a page of the described
size. -/
theorem C87_svg_partial (T : TextEnv φ) (hT : LevelsOfChars T) (stod : Str → Option (ℝ × Nat))
    (hn : stod "solid".toList = none ∧ stod "dash".toList = none) (plot : List Expr → Layer φ → Layer φ × Option Fail)
    (ts : List PTok) (set cmds : List Expr) (src : Str) (hd : Doc ts (set ++ cmds)) (ht : Text ts src)
    (hset : ∀ c ∈ set, ∃ n ∈ settingNames, nameOf c = some n)
    (hcmds : ∀ c ∈ cmds, ∃ n, n ∉ settingNames ∧ nameOf c = some n)
    (version : Str) (hver : '>' ∉ version) (hatch : Path → FillHatch → Path)
    (page : Layer φ) (hpage : PageMeans T stod set (newLayer φ) page "draw".toList)
    (shapes : List (List DrawCmd)) (hshapes : List.Forall₂ (Draws T stod page) cmds shapes)
    (hproper : ∀ c ∈ shapes.flatten, ProperStyle c.style) :
    ∃ picture, evalDocument T stod plot (newLayer φ) src = some picture ∧
      ∀ doc, exportSvg version hatch picture.svg = some doc →
        ∃ w h bg op body, Num w (layerSize page.size.width page.size.dpi) ∧ Num h (layerSize page.size.height page.size.dpi) ∧
          ColorText bg ⟨1, 1, 1, 1⟩ ∧ Num op 1 ∧
          Xml.read doc = some
            ([.pi "xml version=\"1.0\" encoding=\"UTF-8\" ".toList, .text ['\n'],
              .comment (" Generated by clip v".toList ++ version ++ " (clip-lang.org) ".toList), .text ['\n'],
              .opening "svg".toList [("xmlns".toList, "http://www.w3.org/2000/svg".toList), ("width".toList, w),
                ("height".toList, h)], .text "\n  ".toList,
              .empty "rect".toList [("width".toList, w), ("height".toList, h), ("fill".toList, bg),
                ("fill-opacity".toList, op)]] ++ body ++
            [.text ['\n'], .closing "svg".toList, .text ['\n']]) ∧
          (∀ e ∈ body, e = .text "\n  ".toList ∨ ∃ attrs, e = .empty "path".toList attrs) ∧
          List.Forall₂ (Shows (layerSize page.size.height page.size.dpi)) (body.flatMap ops)
            (shapes.flatten.flatMap (paints hatch)) := by
  refine ⟨draw page shapes.flatten, (C87_document_partial T hT stod hn plot ts set cmds src hd ht hset hcmds hpage.2.1 _).2
    ⟨page, shapes, hpage, hshapes, rfl⟩, ?_⟩
  intro doc he
  obtain ⟨-, -, -, -, -, -, hbg, -, -, hdl⟩ := hpage
  have hbg' : page.background = ⟨1, 1, 1, 1⟩ := hbg
  have hdl' : page.drawlist = [] := hdl
  have hl : (draw page shapes.flatten).svg.cmds = shapes.flatten := by
    simp [Pictures.draw, Layer.svg, hdl']
  obtain ⟨w, h, bg, op, body, h1, h2, h3, h4, h5, h6, h7⟩ := C34_document version hver hatch _
    (by simp only [Pictures.draw, Layer.svg, hbg']; simp [Proper]) (by rw [hl]; exact hproper) doc he
  rw [hl] at h7
  simp only [Pictures.draw, Layer.svg, hbg'] at h1 h2 h3 h4 h7
  exact ⟨w, h, bg, op, body, h1, h2, h3, h4, h5, h6, h7⟩

/-! ## A concrete case: `class: draw; rectangle{ size: 3pt 3pt;}` -/

def exSource : Str := ['c', 'l', 'a', 's', 's', ':', ' ', 'd', 'r', 'a', 'w', ';', ' ', 'r', 'e', 'c', 't', 'a', 'n', 'g', 'l', 'e', '{', ' ', 's', 'i', 'z', 'e', ':', ' ', '3', 'p', 't', ' ', '3', 'p', 't', ';', '}']
def exTokens : List PTok := [.str ['c', 'l', 'a', 's', 's'], .colon, .str ['d', 'r', 'a', 'w'], .semicolon, .str ['r', 'e', 'c', 't', 'a', 'n', 'g', 'l', 'e'], .lcbrace, .str ['s', 'i', 'z', 'e'], .colon, .str ['3', 'p', 't'], .str ['3', 'p', 't'], .semicolon, .rcbrace]
def exSettings : List Expr := [.list [.literal ['c', 'l', 'a', 's', 's'], .literal ['d', 'r', 'a', 'w']]]
def exCommands : List Expr :=
  [.list [.literal ['r', 'e', 'c', 't', 'a', 'n', 'g', 'l', 'e'], .list [.literal ['s', 'i', 'z', 'e'], .literal ['3', 'p', 't'], .literal ['3', 'p', 't']]]]

theorem ex_text : Text exTokens exSource := by
  unfold exTokens exSource
  refine .tok (w := ['c', 'l', 'a', 's', 's']) (.str (by decide) (by decide)) ?_ (by decide)
  refine .tok (w := [':']) .colon ?_ (by intro h; cases h)
  refine .blank (by simp) ?_
  refine .tok (w := ['d', 'r', 'a', 'w']) (.str (by decide) (by decide)) ?_ (by decide)
  refine .tok (w := [';']) .semicolon ?_ (by intro h; cases h)
  refine .blank (by simp) ?_
  refine .tok (w := ['r', 'e', 'c', 't', 'a', 'n', 'g', 'l', 'e']) (.str (by decide) (by decide)) ?_ (by decide)
  refine .tok (w := ['{']) .lcbrace ?_ (by intro h; cases h)
  refine .blank (by simp) ?_
  refine .tok (w := ['s', 'i', 'z', 'e']) (.str (by decide) (by decide)) ?_ (by decide)
  refine .tok (w := [':']) .colon ?_ (by intro h; cases h)
  refine .blank (by simp) ?_
  refine .tok (w := ['3', 'p', 't']) (.str (by decide) (by decide)) ?_ (by decide)
  refine .blank (by simp) ?_
  refine .tok (w := ['3', 'p', 't']) (.str (by decide) (by decide)) ?_ (by decide)
  refine .tok (w := [';']) .semicolon ?_ (by intro h; cases h)
  refine .tok (w := ['}']) .rcbrace ?_ (by intro h; cases h)
  exact .nil

theorem ex_doc : Doc exTokens (exSettings ++ exCommands) :=
  .prop (ts := [.str ['d', 'r', 'a', 'w']]) .str (.word .nil)
    (.block (ts := [.str ['s', 'i', 'z', 'e'], .colon, .str ['3', 'p', 't'], .str ['3', 'p', 't'], .semicolon]) .str
      (.prop (ts := [.str ['3', 'p', 't'], .str ['3', 'p', 't']]) .str (.word (.word .nil)) .nil) .nil)

theorem ex_class : Final IsText "class".toList exSettings "plot".toList "draw".toList := ⟨[], .inl rfl⟩

theorem ex_page : PageMeans monoEnv someStod exSettings (newLayer Unit) (newLayer Unit) "draw".toList := by
  refine ⟨?_, ex_class, rfl, rfl, rfl, ⟨[], .nil, rfl⟩, rfl, rfl, rfl, rfl⟩
  intro c hc
  simp only [exSettings, List.mem_singleton] at hc
  subst hc
  exact ⟨_, rfl, .inl ⟨rfl, _, [], .inl rfl⟩⟩

/-- The document is accepted and its picture is one black square in the middle of the page. -/
example (plot : List Expr → Layer Unit → Layer Unit × Option Fail) :
    evalDocument monoEnv someStod plot (newLayer Unit) exSource =
      some (draw (newLayer Unit) [⟨rectangle ⟨(page ((newLayer Unit).env someStod)).x / 2, (page ((newLayer Unit).env someStod)).y / 2⟩
        ⟨8, 8⟩, ⟨[⟨0, 0, 0, 1⟩], [], [], []⟩, false⟩]) := by
  have hs : exprToNumber someStod (uconvSize defaultLayer) (.literal ['3', 'p', 't']) = .ok 8 := by
    obtain ⟨e, r, h, h'⟩ := some_3pt []
    cases h; exact h'
  have hpair : IsExtent ((newLayer Unit).env someStod) [.literal ['3', 'p', 't'], .literal ['3', 'p', 't']] ⟨8, 8⟩ :=
    ⟨_, _, rfl, hs, hs⟩
  refine (C87_document_partial monoEnv monoEnv_levels someStod someStod_words plot exTokens exSettings exCommands exSource
    ex_doc ex_text ?_ ?_ ex_class _).2 ⟨newLayer Unit, [_], ex_page,
      .cons (.rectangle (position := ⟨(page ((newLayer Unit).env someStod)).x / 2, (page ((newLayer Unit).env someStod)).y / 2⟩)
        (size := ⟨8, 8⟩) (style := ⟨[], [], [], []⟩) rfl ⟨?_, rfl, hpair, ?_⟩ rfl) .nil, rfl⟩
  · intro c hc
    simp only [exSettings, List.mem_singleton] at hc
    subst hc
    exact ⟨_, by decide, rfl⟩
  · intro c hc
    simp only [exCommands, List.mem_singleton] at hc
    subst hc
    exact ⟨['r', 'e', 'c', 't', 'a', 'n', 'g', 'l', 'e'], by decide, rfl⟩
  · intro c hc
    simp only [argsOf, List.mem_singleton] at hc
    subst hc
    exact ⟨_, rfl, .inr (.inl ⟨rfl, _, hpair⟩)⟩
  · exact .other (by decide) (by decide) (by decide) .nil

end Clip
