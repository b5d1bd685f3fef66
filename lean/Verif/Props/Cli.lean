import Verif.Model.Cli
import Verif.Props.Flags
/-!
# C74, C75: the command line program
-/
set_option linter.unusedSimpArgs false
namespace Clip
open Cmdline

/-- Specification: the values given for flag `i` on a command line, in order. -/
def given (items : List Item) (i : Nat) : List Str :=
  ((items.flatMap Item.sets).filter (·.1 == i)).map fun c => c.2.getD []

/-- Specification: the last one. -/
def lastGiven (items : List Item) (i : Nat) : Str := (given items i).getLast?.getD []

/-- Specification: a name ends with a suffix. -/
def HasSuffix (s t : Str) : Prop := ∃ r, s = r ++ t

theorem endsWith_iff (s t : Str) : endsWith s t = true ↔ HasSuffix s t := by
  unfold endsWith HasSuffix
  split
  · next h =>
    constructor
    · intro h; cases h
    · rintro ⟨r, rfl⟩; simp at h; omega
  · next h =>
    rw [beq_iff_eq]
    have hl : (s.drop (s.length - t.length)).length = t.length := by simp; omega
    rw [List.take_of_length_le (by omega)]
    constructor
    · intro e; exact ⟨s.take (s.length - t.length), by
      have := List.take_append_drop (s.length - t.length) s
      rw [e] at this; exact this.symm⟩
    · rintro ⟨r, rfl⟩; simp

theorem cliFlags_good : GoodFlags cliFlags := by
  refine ⟨?_, ?_, ?_, ?_⟩
  · intro f hf c hc
    simp only [cliFlags, List.mem_cons, List.not_mem_nil, or_false] at hf
    rcases hf with rfl | rfl | rfl | rfl | rfl | rfl <;> simp_all <;> subst hc <;> decide
  · simp [cliFlags]
  · decide
  · decide

/-- C74: nothing is printed on the standard output and no file is touched unless the program succeeds; this holds for
every command line and every environment. -/
theorem C74_failure_no_output {Ctx : Type} (env : CliEnv Ctx) (argv : List Str) (h : (cliMain env argv).exit ≠ 0) :
    (cliMain env argv).stdout = [] ∧ (cliMain env argv).write = none := by
  revert h
  unfold cliMain cliExport cliFail
  repeat' split
  all_goals simp
  all_goals repeat' split
  all_goals simp

/-- The evaluated input of a command line with one file argument. -/
def cliInput {Ctx : Type} (env : CliEnv Ctx) (path : Str) : Option Str :=
  if path = ['-'] then some env.stdin else env.readFile path

theorem main_of_items {Ctx : Type} (env : CliEnv Ctx) (items : List Item) (hv : ∀ it ∈ items, it.Valid cliFlags)
    (path : Str) (hp : items.flatMap Item.rest = [path]) (hver : given items 5 = []) (hhelp : given items 4 = []) :
    cliMain env (items.flatMap (Item.args cliFlags)) =
      match cliFormat (lastGiven items 1) (lastGiven items 0) with
      | none => cliFail
      | some format => match env.setup (given items 2) with
        | none => cliFail
        | some ctx => match cliInput env path with
          | none => cliFail
          | some input => match env.eval ctx input with
            | none => cliFail
            | some ctx => cliExport env ctx format (lastGiven items 0) := by
  have hparse := (C45_parse cliFlags cliFlags_good items hv []).1
  rw [hp] at hparse
  have hsw : ∀ i, given items i = [] → switchFlag i false (items.flatMap Item.sets) = false := by
    intro i hi
    have := (C45_values i (items.flatMap Item.sets) [] false).2.2
    cases hs : switchFlag i false (items.flatMap Item.sets) with
    | false => rfl
    | true =>
      rcases this.1 hs with h | ⟨v, h⟩
      · cases h
      · have hm : (i, v) ∈ (items.flatMap Item.sets).filter (·.1 == i) := by simp only [List.mem_filter]; exact ⟨h, by simp⟩
        simp only [given, List.map_eq_nil_iff] at hi
        rw [hi] at hm; cases hm
  have hstr : ∀ i, stringFlag i [] (items.flatMap Item.sets) = lastGiven items i :=
    fun i => (C45_values i _ [] false).1
  have hstv : stringvFlag 2 [] (items.flatMap Item.sets) = given items 2 := (C45_values 2 _ [] false).2.1
  unfold cliMain
  rw [hparse]
  simp only [hsw 5 hver, hsw 4 hhelp, hstr, hstv, Bool.false_eq_true, if_false]
  rfl

/-- C74: exporting.  With one input file, a usable format and an export path, the program writes exactly the SVG text of
the evaluated input to the path (to the standard output for `-`) and succeeds; the last `-e` and `-f` count and all fonts
are passed on in order.  Options and the file may stand in any order and spelling. -/
theorem C74_export_svg {Ctx : Type} (env : CliEnv Ctx) (items : List Item) (hv : ∀ it ∈ items, it.Valid cliFlags)
    (path : Str) (hp : items.flatMap Item.rest = [path]) (hver : given items 5 = []) (hhelp : given items 4 = [])
    (hf : lastGiven items 1 = "svg".toList ∨ (lastGiven items 1 = [] ∧ ¬ HasSuffix (lastGiven items 0) ".png".toList))
    (hne : lastGiven items 0 ≠ []) (ctx ctx' : Ctx) (input svg : Str) (hs : env.setup (given items 2) = some ctx)
    (hi : cliInput env path = some input) (he : env.eval ctx input = some ctx') (hx : env.exportSvg ctx' = some svg) :
    cliMain env (items.flatMap (Item.args cliFlags)) =
      if lastGiven items 0 = ['-'] then ⟨0, svg, none⟩ else ⟨0, [], some (lastGiven items 0, svg)⟩ := by
  have hform : cliFormat (lastGiven items 1) (lastGiven items 0) = some .svg := by
    rcases hf with h | ⟨h1, h2⟩
    · rw [h]; rfl
    · rw [h1]
      have : endsWith (lastGiven items 0) ['.', 'p', 'n', 'g'] = false := by
        cases he : endsWith (lastGiven items 0) ['.', 'p', 'n', 'g'] with
        | false => rfl
        | true => exact absurd ((endsWith_iff _ _).1 he) h2
      simp [cliFormat, this]
  rw [main_of_items env items hv path hp hver hhelp, hform]
  simp only [hs, hi, he, cliExport, hne, if_false, hx]

/-- C74: whatever goes wrong, the program fails: unusable format, fonts, unreadable input, an evaluation or an export
that fails. -/
theorem C74_errors {Ctx : Type} (env : CliEnv Ctx) (items : List Item) (hv : ∀ it ∈ items, it.Valid cliFlags)
    (path : Str) (hp : items.flatMap Item.rest = [path]) (hver : given items 5 = []) (hhelp : given items 4 = [])
    (h : (lastGiven items 1 ∉ [[], "svg".toList, "png".toList]) ∨ env.setup (given items 2) = none ∨
      cliInput env path = none ∨
      ∃ ctx input, env.setup (given items 2) = some ctx ∧ cliInput env path = some input ∧
        (env.eval ctx input = none ∨
          ∃ ctx', env.eval ctx input = some ctx' ∧ env.exportSvg ctx' = none ∧ lastGiven items 0 ≠ [] ∧
            lastGiven items 1 = "svg".toList)) :
    cliMain env (items.flatMap (Item.args cliFlags)) = ⟨1, [], none⟩ := by
  rw [main_of_items env items hv path hp hver hhelp]
  rcases h with h | h | h | ⟨ctx, input, h1, h2, h3⟩
  · have : cliFormat (lastGiven items 1) (lastGiven items 0) = none := by
      simp only [List.mem_cons, List.not_mem_nil, or_false, not_or] at h
      obtain ⟨a, b, c⟩ := h
      unfold cliFormat
      have b' : lastGiven items 1 ≠ ['s', 'v', 'g'] := b
      have c' : lastGiven items 1 ≠ ['p', 'n', 'g'] := c
      rw [if_neg a, if_neg b', if_neg c']
    rw [this]; rfl
  · split
    · rfl
    · rw [h]; rfl
  · split
    · rfl
    · split
      · rfl
      · rw [h]; rfl
  · split
    · rfl
    · next fmt hfmt =>
      simp only [h1, h2]
      rcases h3 with h3 | ⟨ctx', h3, h4, h5, h6⟩
      · rw [h3]; rfl
      · rw [h3]
        have : fmt = .svg := by
          rw [h6] at hfmt
          have e : cliFormat "svg".toList (lastGiven items 0) = some .svg := rfl
          rw [e] at hfmt
          exact (Option.some.inj hfmt).symm
        subst this
        simp only [cliExport, h5, if_false, h4]
        rfl

/-- C74, violated by the code: asked for a PNG image, the program writes an empty file and reports success. -/
theorem C74_png_empty {Ctx : Type} (env : CliEnv Ctx) (items : List Item) (hv : ∀ it ∈ items, it.Valid cliFlags)
    (path : Str) (hp : items.flatMap Item.rest = [path]) (hver : given items 5 = []) (hhelp : given items 4 = [])
    (hf : lastGiven items 1 = "png".toList ∨ (lastGiven items 1 = [] ∧ HasSuffix (lastGiven items 0) ".png".toList))
    (hne : lastGiven items 0 ≠ []) (hd : lastGiven items 0 ≠ ['-']) (ctx ctx' : Ctx) (input : Str)
    (hs : env.setup (given items 2) = some ctx) (hi : cliInput env path = some input) (he : env.eval ctx input = some ctx') :
    cliMain env (items.flatMap (Item.args cliFlags)) = ⟨0, [], some (lastGiven items 0, [])⟩ := by
  have hform : cliFormat (lastGiven items 1) (lastGiven items 0) = some .png := by
    rcases hf with h | ⟨h1, h2⟩
    · rw [h]; rfl
    · rw [h1]
      have : endsWith (lastGiven items 0) ['.', 'p', 'n', 'g'] = true := (endsWith_iff _ _).2 h2
      simp [cliFormat, this]
  rw [main_of_items env items hv path hp hver hhelp, hform]
  simp only [hs, hi, he, cliExport, hne, if_false, hd]

/-- C74: without exactly one input file only the usage is shown (with exit status 0). -/
theorem C74_usage {Ctx : Type} (env : CliEnv Ctx) (items : List Item) (hv : ∀ it ∈ items, it.Valid cliFlags)
    (hp : (items.flatMap Item.rest).length ≠ 1) :
    cliMain env (items.flatMap (Item.args cliFlags)) = ⟨0, [], none⟩ := by
  have hparse := (C45_parse cliFlags cliFlags_good items hv []).1
  unfold cliMain
  rw [hparse]
  simp only
  split
  · rfl
  · split
    · next h => rw [h] at hp; exact absurd rfl hp
    · rfl

/-! ## Writing the file -/

/-- Specification: what can be on disk when the program or the machine stops at any moment. -/
def CrashStates (d : Disk) (ops : List DiskOp) : List Disk := (List.range (ops.length + 1)).map fun k => (ops.take k).foldl DiskOp.run d

/-- C75: at any crash point, and for any amount of data the system accepts, the other files are unchanged and the exported
file has its old contents or a prefix of the new ones; if the write is reported as successful it has exactly the new contents. -/
theorem C75_crash (d : Disk) (path data : Str) (n : Nat) :
    (∀ d' ∈ CrashStates d (fileWriteOps path data n),
      (∀ q, q ≠ path → d' q = d q) ∧ (d' path = d path ∨ ∃ s, d' path = some s ∧ s <+: data)) ∧
    (fileWriteOk data n = true → ((fileWriteOps path data n).foldl DiskOp.run d) path = some data) := by
  constructor
  · intro d' h
    simp only [CrashStates, fileWriteOps, List.length_cons, List.length_nil, List.mem_map, List.mem_range] at h
    obtain ⟨k, hk, rfl⟩ := h
    have : k = 0 ∨ k = 1 ∨ k = 2 := by omega
    rcases this with rfl | rfl | rfl
    · exact ⟨fun _ _ => rfl, Or.inl rfl⟩
    · refine ⟨fun q hq => ?_, Or.inr ⟨[], ?_, List.nil_prefix⟩⟩ <;> simp [DiskOp.run, *]
    · refine ⟨fun q hq => ?_, Or.inr ⟨data.take n, ?_, List.take_prefix _ _⟩⟩ <;> simp [DiskOp.run, *]
  · intro h
    simp only [fileWriteOk, beq_iff_eq] at h
    subst h
    simp [fileWriteOps, DiskOp.run]

/-- C75, violated by the code: exporting is not atomic; there is a crash point at which the previous file is gone and the
new one is empty. -/
theorem C75_not_atomic (d : Disk) (path old data : Str) (n : Nat) (hold : d path = some old) (h1 : old ≠ []) (h2 : data ≠ []) :
    ∃ d' ∈ CrashStates d (fileWriteOps path data n), d' path ≠ some old ∧ d' path ≠ some data := by
  refine ⟨DiskOp.run d (.openTrunc path), ?_, ?_, ?_⟩
  · simp only [CrashStates, List.mem_map, List.mem_range]
    exact ⟨1, by simp [fileWriteOps], rfl⟩
  · simp [DiskOp.run, Ne.symm h1]
  · simp [DiskOp.run, Ne.symm h2]

/-- The hypotheses are met by `chart.clp -e out.svg`. -/
example : (∀ it ∈ [Item.positional "chart.clp".toList, .shortValue [] 0 "out.svg".toList], it.Valid cliFlags) ∧
    lastGiven [Item.positional "chart.clp".toList, .shortValue [] 0 "out.svg".toList] 0 = "out.svg".toList := by
  refine ⟨?_, by decide⟩
  intro it h
  simp only [List.mem_cons, List.not_mem_nil, or_false] at h
  rcases h with rfl | rfl
  · exact Or.inr (by decide)
  · exact ⟨by simp, ⟨_, 'e', rfl, rfl, rfl⟩⟩

/-- And it is parsed as expected, also in the other order and spelling, and abbreviated. -/
example : flagsParse cliFlags ["--export=a.svg".toList, "-df".toList, "svg".toList, "in".toList, "--".toList, "-x".toList] =
    some ([(0, some "a.svg".toList), (3, none), (1, some "svg".toList)], ["in".toList, "-x".toList]) := by rfl

/-- Abbreviated. -/
example : flagsParse cliFlags ["--ver".toList, "--exp".toList, "x".toList] = some ([(5, none), (0, some "x".toList)], []) := by rfl

/-! ## The documented options -/

/-- The usage text, cli.cc:98-117: `-e, --export <path>`, `-f, --export-format <fmt>`, `--font-load <path>`, `-d, --debug`,
`-h, --help`, `-v, --version`. -/
def documentedOptions : List (Option Char × Str × Bool) :=
  [(some 'e', "export".toList, true), (some 'f', "export-format".toList, true), (none, "font-load".toList, true),
   (some 'd', "debug".toList, false), (some 'h', "help".toList, false), (some 'v', "version".toList, false)]

/-- C74: the options that are understood are the documented ones. -/
theorem C74_options : cliFlags.map (fun f => (f.short, f.long, f.hasArg)) = documentedOptions := by rfl

/-- C74: asked for its version, the program shows it and does nothing else, whatever else is on the command line. -/
theorem C74_version {Ctx : Type} (env : CliEnv Ctx) (items : List Item) (hv : ∀ it ∈ items, it.Valid cliFlags)
    (h : ∃ v, (5, v) ∈ items.flatMap Item.sets) :
    cliMain env (items.flatMap (Item.args cliFlags)) = ⟨0, [], none⟩ := by
  have hparse := (C45_parse cliFlags cliFlags_good items hv []).1
  have hs : switchFlag 5 false (items.flatMap Item.sets) = true := ((C45_values 5 _ [] false).2.2).2 (Or.inr h)
  unfold cliMain
  rw [hparse]
  simp only [hs, if_true]

/-- C74: the same for help. -/
theorem C74_help {Ctx : Type} (env : CliEnv Ctx) (items : List Item) (hv : ∀ it ∈ items, it.Valid cliFlags)
    (h : ∃ v, (4, v) ∈ items.flatMap Item.sets) :
    cliMain env (items.flatMap (Item.args cliFlags)) = ⟨0, [], none⟩ := by
  have hparse := (C45_parse cliFlags cliFlags_good items hv []).1
  have hs : switchFlag 4 false (items.flatMap Item.sets) = true := ((C45_values 4 _ [] false).2.2).2 (Or.inr h)
  unfold cliMain
  rw [hparse]
  simp only [hs, if_true]
  split
  · rfl
  · split <;> rfl

/-- C74: without an export path the input is evaluated, but nothing is produced; the program succeeds. -/
theorem C74_check_only {Ctx : Type} (env : CliEnv Ctx) (items : List Item) (hv : ∀ it ∈ items, it.Valid cliFlags)
    (path : Str) (hp : items.flatMap Item.rest = [path]) (hver : given items 5 = []) (hhelp : given items 4 = [])
    (hf : lastGiven items 1 ∈ [[], "svg".toList, "png".toList]) (hne : lastGiven items 0 = [])
    (ctx ctx' : Ctx) (input : Str) (hs : env.setup (given items 2) = some ctx) (hi : cliInput env path = some input)
    (he : env.eval ctx input = some ctx') :
    cliMain env (items.flatMap (Item.args cliFlags)) = ⟨0, [], none⟩ := by
  have hform : ∃ f, cliFormat (lastGiven items 1) (lastGiven items 0) = some f := by
    simp only [List.mem_cons, List.not_mem_nil, or_false] at hf
    rcases hf with h | h | h
    · rw [h]; exact ⟨_, rfl⟩
    · rw [h]; exact ⟨.svg, rfl⟩
    · rw [h]; exact ⟨.png, rfl⟩
  obtain ⟨f, hform⟩ := hform
  rw [main_of_items env items hv path hp hver hhelp, hform]
  simp only [hs, hi, he, cliExport, hne, if_true]

/-- C74: a command line that cannot be understood is a failure. -/
theorem C74_invalid {Ctx : Type} (env : CliEnv Ctx) (argv : List Str) (h : flagsParse cliFlags argv = none) :
    cliMain env argv = ⟨1, [], none⟩ := by
  unfold cliMain
  rw [h]; rfl

/-- For example an unknown option, or a missing value. -/
example : flagsParse cliFlags ["in".toList, "--frob".toList] = none ∧ flagsParse cliFlags ["in".toList, "-e".toList] = none := by
  exact ⟨rfl, rfl⟩

example : (5, none) ∈ [Item.switches [5], .positional "x".toList].flatMap Item.sets := by decide

end Clip
