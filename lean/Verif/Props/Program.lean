import Verif.Props.WholePicture
import Verif.Props.Cli
import Verif.Spec.Program
set_option linter.unusedSimpArgs false
/-!
# C99: from the command line to the file
-/
namespace Clip
noncomputable section
open Commands Settings Drawing Pictures PlotSpec Whole PlistSyntax Xml SvgDoc Cmdline
variable {φ : Type}

theorem fontLoadBest_iff (F : FontSystem φ) (name : Str) (f : φ) : fontLoadBest F name = some f ↔ NamesFont F name f := by
  have hfile : (name.head? = some '/' ∨ endsWith name ['.', 'o', 't', 'f'] = true ∨ endsWith name ['.', 't', 't', 'f'] = true) ↔
      IsFontFile name := by
    unfold IsFontFile
    refine or_congr ?_ (or_congr (endsWith_iff _ _) (endsWith_iff _ _))
    cases name with
    | nil => simp
    | cons c cs => simp
  unfold fontLoadBest NamesFont
  by_cases h0 : name = []
  · simp [h0]
  · by_cases h1 : IsFontFile name
    · have h1' := hfile.2 h1
      simp only [h0, if_false, if_pos h1', h1, not_true, false_and, or_false, true_and, ne_eq, not_false_iff,
        exists_eq_left]
    · have h1' := mt hfile.1 h1
      simp only [h0, if_false, if_neg h1', h1, not_false_iff, false_and, false_or, true_and, ne_eq]
      cases F.find name <;> simp

/-- C99: a font named on the command line or by a setting is the file with this name, for an absolute path or a name that
ends in `.otf` or `.ttf`, and otherwise the best match of the system. -/
theorem C99_font (F : FontSystem φ) (name : Str) :
    (∀ f, fontLoadBest F name = some f ↔ NamesFont F name f) ∧
    (fontLoadBest F name = none ↔ ¬ ∃ f, NamesFont F name f) := by
  refine ⟨fontLoadBest_iff F name, ?_⟩
  constructor
  · rintro h ⟨f, hf⟩
    rw [(fontLoadBest_iff F name f).2 hf] at h; cases h
  · intro h
    cases hx : fontLoadBest F name with
    | none => rfl
    | some f => exact absurd ⟨f, (fontLoadBest_iff F name f).1 hx⟩ h

theorem fontLoadAll_iff (F : FontSystem φ) (names : List Str) (fonts fonts' : List φ) :
    fontLoadAll F names fonts = some fonts' ↔ ∃ own, List.Forall₂ (NamesFont F) names own ∧ fonts' = own.reverse ++ fonts := by
  induction names generalizing fonts with
  | nil =>
    simp only [fontLoadAll, Option.some.injEq]
    constructor
    · rintro rfl; exact ⟨[], .nil, rfl⟩
    · rintro ⟨own, h, rfl⟩; cases h; rfl
  | cons n ns ih =>
    rw [fontLoadAll]
    cases hf : fontLoadBest F n with
    | none =>
      simp only
      constructor
      · intro h; cases h
      · rintro ⟨own, h, -⟩
        cases h with
        | cons h _ => rw [(fontLoadBest_iff F n _).2 h] at hf; cases hf
    | some f =>
      simp only
      rw [ih]
      constructor
      · rintro ⟨own, h, rfl⟩
        exact ⟨f :: own, .cons ((fontLoadBest_iff F n f).1 hf) h, by simp⟩
      · rintro ⟨own, h, rfl⟩
        cases h with
        | cons h h' =>
          rename_i g own
          rw [(fontLoadBest_iff F n g).2 h] at hf
          cases hf
          exact ⟨own, h', by simp⟩

theorem mapM_forall₂ {α β : Type} (f : α → Option β) (l : List α) (m : List β) :
    l.mapM f = some m ↔ List.Forall₂ (fun a b => f a = some b) l m := by
  induction l generalizing m with
  | nil =>
    constructor
    · intro h; cases h; exact .nil
    · intro h; cases h; rfl
  | cons a l ih =>
    rw [List.mapM_cons]
    simp only [Option.bind_eq_bind, Option.bind_eq_some_iff, Option.pure_def, Option.some.injEq]
    constructor
    · rintro ⟨b, hb, m', hm, rfl⟩; exact .cons hb ((ih m').1 hm)
    · intro h
      cases h with
      | cons hb h => exact ⟨_, hb, _, (ih _).2 h, rfl⟩

theorem layerCreate_iff (F : FontSystem φ) (names : List Str) (L : Layer φ) : layerCreate F names = some L ↔ StartPage F names L := by
  unfold layerCreate StartPage fontLoadDefaults
  constructor
  · intro h
    split at h
    · cases h
    · rename_i ds hds
      split at h
      · cases h
      · rename_i fonts hfonts
        cases h
        obtain ⟨own, h1, rfl⟩ := (fontLoadAll_iff F names ds fonts).1 hfonts
        exact ⟨own, ds, h1, (mapM_forall₂ _ _ _).1 hds, rfl⟩
  · rintro ⟨own, ds, h1, h2, rfl⟩
    rw [(mapM_forall₂ _ _ _).2 h2]
    simp only
    rw [(fontLoadAll_iff F names ds _).2 ⟨own, h1, rfl⟩]

/-- C99: the program with one input and an SVG file to write succeeds exactly if the fonts can be loaded, the input can be
read and describes a picture, and this picture can be written as SVG; it then writes exactly this (to the standard output
if the file is `-`).  Otherwise it fails and writes nothing. -/
theorem C99_program (F : FontSystem φ) (P : PlotEnv φ) (hT : LevelsOfChars P.text)
    (hn : P.stod "solid".toList = none ∧ P.stod "dash".toList = none) (stdin version : Str) (hatch : Path → FillHatch → Path)
    (items : List Item) (hv : ∀ it ∈ items, it.Valid cliFlags)
    (path : Str) (hp : items.flatMap Item.rest = [path]) (hver : given items 5 = []) (hhelp : given items 4 = [])
    (hf : lastGiven items 1 = "svg".toList ∨ (lastGiven items 1 = [] ∧ ¬ HasSuffix (lastGiven items 0) ".png".toList))
    (hne : lastGiven items 0 ≠ []) :
    let run := cliMain (programEnv F P stdin version hatch) (items.flatMap (Item.args cliFlags))
    let good := fun svg => ∃ L input picture, StartPage F (given items 2) L ∧
      ((path = ['-'] ∧ input = stdin) ∨ (path ≠ ['-'] ∧ P.readFile path = some input)) ∧
      TextOf P L input picture ∧ exportSvg version hatch picture.svg = some svg
    (∀ svg, run = (if lastGiven items 0 = ['-'] then ⟨0, svg, none⟩ else ⟨0, [], some (lastGiven items 0, svg)⟩) ↔ good svg) ∧
    ((¬ ∃ svg, good svg) → run = ⟨1, [], none⟩) := by
  intro run good
  have hform : cliFormat (lastGiven items 1) (lastGiven items 0) = some .svg := by
    rcases hf with h | ⟨h1, h2⟩
    · rw [h]; rfl
    · rw [h1]
      have : endsWith (lastGiven items 0) ['.', 'p', 'n', 'g'] = false := by
        cases he : endsWith (lastGiven items 0) ['.', 'p', 'n', 'g'] with
        | false => rfl
        | true => exact absurd ((endsWith_iff _ _).1 he) h2
      simp [cliFormat, this]
  have hrun := main_of_items (programEnv F P stdin version hatch) items hv path hp hver hhelp
  rw [hform] at hrun
  have input : ∀ i, cliInput (programEnv F P stdin version hatch) path = some i ↔
      ((path = ['-'] ∧ i = stdin) ∨ (path ≠ ['-'] ∧ P.readFile path = some i)) := by
    intro i
    unfold cliInput programEnv
    by_cases h : path = ['-']
    · simp [h, eq_comm]
    · simp [h]
  have ev : ∀ L i pic, StartPage F (given items 2) L → (evalAll P L i = some pic ↔ TextOf P L i pic) := by
    rintro L i pic ⟨own, ds, -, -, rfl⟩
    exact C98_text P hT hn { newLayer φ with fonts := own.reverse ++ ds } (newLayer_palette (φ := φ)) i pic
  have fwd : ∀ svg, good svg →
      run = (if lastGiven items 0 = ['-'] then ⟨0, svg, none⟩ else ⟨0, [], some (lastGiven items 0, svg)⟩) := by
    rintro svg ⟨L, i, pic, h1, h2, h3, h4⟩
    exact C74_export_svg _ items hv path hp hver hhelp hf hne L pic i svg ((layerCreate_iff F _ L).2 h1) ((input i).2 h2)
      ((ev L i pic h1).2 h3) h4
  have bad : (¬ ∃ svg, good svg) → run = ⟨1, [], none⟩ := by
    intro h
    show cliMain _ _ = _
    rw [hrun]
    simp only
    cases h1 : (programEnv F P stdin version hatch).setup (given items 2) with
    | none => rfl
    | some L =>
      have h1' := (layerCreate_iff F _ L).1 h1
      simp only
      cases h2 : cliInput (programEnv F P stdin version hatch) path with
      | none => rfl
      | some i =>
        simp only
        cases h3 : (programEnv F P stdin version hatch).eval L i with
        | none => rfl
        | some pic =>
          simp only [cliExport, hne, if_false]
          cases h4 : (programEnv F P stdin version hatch).exportSvg pic with
          | none => rfl
          | some svg => exact absurd ⟨svg, L, i, pic, h1', (input i).1 h2, (ev L i pic h1').1 h3, h4⟩ h
  refine ⟨fun svg => ⟨fun h => ?_, fwd svg⟩, bad⟩
  by_cases hg : ∃ s, good s
  · obtain ⟨s, hs⟩ := hg
    have := fwd s hs
    rw [h] at this
    by_cases hd : lastGiven items 0 = ['-']
    · simp only [hd, if_true, CliResult.mk.injEq, true_and, and_true] at this
      rw [this]; exact hs
    · simp only [hd, if_false, CliResult.mk.injEq, true_and, Option.some.injEq, Prod.mk.injEq] at this
      rw [this]; exact hs
  · have := bad hg
    rw [h] at this
    split at this <;> cases this

/-- `chart.clp -e out.svg`, where `chart.clp` is `lines{data-x:list(1 4);data-y:list(2 8);}`, writes the line from corner to
corner to `out.svg`. -/
example (F : FontSystem φ) (P : PlotEnv φ) (hT : LevelsOfChars P.text)
    (hn : P.stod "solid".toList = none ∧ P.stod "dash".toList = none) (stdin version : Str) (hatch : Path → FillHatch → Path)
    (h1 : P.parse "1".toList = some 1) (h4 : P.parse "4".toList = some 4)
    (h2 : P.parse "2".toList = some 2) (h8 : P.parse "8".toList = some 8)
    (hfile : P.readFile "chart.clp".toList = some exText)
    (fonts : List φ) (hfonts : List.Forall₂ (fun file f => F.open_ file = some f) F.defaults fonts) (svg : Str) :
    let L : Layer φ := { newLayer φ with fonts := fonts }
    exportSvg version hatch (draw L [exShape L]).svg = some svg →
    cliMain (programEnv F P stdin version hatch) ["chart.clp".toList, "-e".toList, "out.svg".toList] =
      ⟨0, [], some ("out.svg".toList, svg)⟩ := by
  intro L hs
  have hv : ∀ it ∈ [Item.positional "chart.clp".toList, .shortValue [] 0 "out.svg".toList], it.Valid cliFlags := by
    intro it h
    simp only [List.mem_cons, List.not_mem_nil, or_false] at h
    rcases h with rfl | rfl
    · exact Or.inr (by decide)
    · exact ⟨by simp, ⟨_, 'e', rfl, rfl, rfl⟩⟩
  have e0 : lastGiven [Item.positional "chart.clp".toList, .shortValue [] 0 "out.svg".toList] 0 = "out.svg".toList := by decide
  have := ((C99_program F P hT hn stdin version hatch [.positional "chart.clp".toList, .shortValue [] 0 "out.svg".toList] hv
    "chart.clp".toList (by decide) (by decide) (by decide)
    (.inr ⟨by decide, by
      rw [e0]
      intro h
      exact absurd ((endsWith_iff _ _).2 h) (by decide)⟩) (by rw [e0]; decide)).1 svg).2
    ⟨L, exText, draw L [exShape L], ⟨[], fonts, ?_, hfonts, rfl⟩, .inr ⟨by decide, hfile⟩,
      exTextOf P hT L (newLayer_palette (φ := φ)) h1 h4 h2 h8, hs⟩
  · rw [e0, if_neg (by decide)] at this
    exact this
  · have : given [Item.positional "chart.clp".toList, .shortValue [] 0 "out.svg".toList] 2 = [] := by decide
    rw [this]; exact .nil

end
end Clip
