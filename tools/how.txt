C01 | Sexpr: the parser as a machine over (input, stack) | induction over the tree with generalised stack
C02 | Sexpr: the parser as a machine over (input, stack) | induction over the tree with generalised stack
C03 | Sexpr: the parser as a machine over (input, stack) | induction over the tree with generalised stack
C04 | Sexpr: step relation | well-founded measure; exact diverging set
C05 | Sexpr: chains of cells | structural induction
C06 | Plist: tokenizer with look-ahead, recursive descent | induction over documents; length measure
C07 | Plist: tokenizer with look-ahead, recursive descent | induction over documents; length measure
C08 | Eval: command walk over an abstract state and handler table | induction over the command list
C09 | Eval: command walk over an abstract state and handler table | induction over the command list
C10 | Csv: parser over characters | induction over rows, fields, characters
C11 | Csv: parser over characters | induction over rows, fields, characters
C12 | Data, Csv | list induction; partition lemma
C13 | Data, Csv | list induction; partition lemma
C14 | Utf8: bit operations | bit lemmas, induction over texts
C15 | Utf8: bit operations | bit lemmas, induction over texts
C16 | Utf8: bit operations | bit lemmas, induction over texts
C17 | Time: `BitVec 64` arithmetic, civil calendar | induction over years and months; modular arithmetic
C18 | Time: `BitVec 64` arithmetic, civil calendar | induction over years and months; modular arithmetic
C19 | Time: `BitVec 64` arithmetic, civil calendar | induction over years and months; modular arithmetic
C20 | Scale: with rounding parameter | field arithmetic, induction over tick loops, divergence by invariants
C21 | Scale: with rounding parameter | field arithmetic, induction over tick loops, divergence by invariants
C22 | Scale: with rounding parameter | field arithmetic, induction over tick loops, divergence by invariants
C23 | Scale: with rounding parameter | field arithmetic, induction over tick loops, divergence by invariants
C24 | Scale: with rounding parameter | field arithmetic, induction over tick loops, divergence by invariants
C25 | Scale: with rounding parameter | field arithmetic, induction over tick loops, divergence by invariants
C26 | Units | case analysis, field arithmetic
C27 | Color | digit lemmas; sorted tables
C28 | Color | digit lemmas; sorted tables
C29 | VMath, Path | ring normalisation, Mathlib matrices, induction over commands
C30 | VMath, Path | ring normalisation, Mathlib matrices, induction over commands
C31 | GLayout | linear arithmetic
C32 | TextLayout | permutation and run invariants
C33 | Svg: exporter; Spec: an SVG reader | induction over documents; reading back what was written
C34 | Svg: exporter; Spec: an SVG reader | induction over documents; reading back what was written
C35 | Buffer: cells with indeterminate values | refinement to byte sequences over all histories
C36 | Image | index arithmetic
C37 | StringUtil | list induction
C38 | Json: tokenizer, skipping | induction over values
C39 | GeoJson, GeoData: event reader over tokens | induction over documents
C40 | Eval: command walk over an abstract state and handler table | induction over the command list
C41 | Intersect: lines, segments, hatching | real algebra; loop invariants
C42 | Plots: drawing loops of the plot elements | induction over the data
C43 | Format | digit lemmas; modular index
C44 | Eval: command walk over an abstract state and handler table | induction over the command list
C45 | Flags: getopt_long from its documentation | induction over command lines
C46 | Plist | exact acceptance; witness
C47 | Plist | exact acceptance; witness
C48 | Eval: command walk over an abstract state and handler table | induction over the command list
C49 | Eval: command walk over an abstract state and handler table | induction over the command list
C50 | Data, Csv | list induction; partition lemma
C51 | Data, Csv | list induction; partition lemma
C52 | Data, Csv | list induction; partition lemma
C53 | Data, Csv | list induction; partition lemma
C54 | GeoJson, GeoData: event reader over tokens | induction over documents
C55 | Utf8: bit operations | bit lemmas, induction over texts
C56 | Time: `BitVec 64` arithmetic, civil calendar | induction over years and months; modular arithmetic
C57 | Json: tokenizer, skipping | induction over values
C58 | GeoJson, GeoData: event reader over tokens | induction over documents
C59 | StringUtil | list induction
C60 | StringUtil | list induction
C61 | StringUtil | list induction
C62 | Intersect: lines, segments, hatching | real algebra; loop invariants
C63 | Plots: drawing loops of the plot elements | induction over the data
C64 | Plots: drawing loops of the plot elements | induction over the data
C65 | Plots: drawing loops of the plot elements | induction over the data
C66 | Marker | table with independent shape list
C67 | Units | case analysis, field arithmetic
C68 | Units | case analysis, field arithmetic
C69 | Format | digit lemmas; modular index
C70 | Format | digit lemmas; modular index
C71 | Color | digit lemmas; sorted tables
C72 | TextLayout | permutation and run invariants
C73 | Svg: exporter; Spec: an SVG reader | induction over documents; reading back what was written
C74 | Cli: main with environment parameters; disk steps | case analysis; all crash points
C75 | Cli: main with environment parameters; disk steps | case analysis; all crash points
C76 | Sexpr: expr_inspect | induction over expressions
C77 | Style, Eval: expr_walk_params | list induction
C78 | Style: readers | exact acceptance and meaning against independent grammar
C79 | Style: readers | exact acceptance and meaning against independent grammar
C80 | Style: readers | exact acceptance and meaning against independent grammar
C81 | Draw: rectangle, text, fonts | equations against pictures
C82 | Draw: rectangle, text, fonts | equations against pictures
C83 | Draw: rectangle, text, fonts | equations against pictures
C84 | Draw: rectangle, text, fonts | equations against pictures
C85 | TextLayout | permutation and run invariants
C86 | Draw, Eval, Svg, Sexpr/Plist composed | composition of the theorems above
C87 | Draw, Eval, Svg, Sexpr/Plist composed | composition of the theorems above
C88 | PlotModule, PlotConf, Axis, Legend: the two passes of plot_eval over all command tables | every command handler preserves the frame relation `Adds`; induction over the walk; the preparation changes only scales, so a failing preparation leaves the layer as it was
C90 | the option tables of the fourteen elements, with all readers | every option of a table has exactly one effect per setting (`Covers`), induction over the block of options; acceptance by matching tables entry by entry
C89 | Model/PlotModule.lean (`plotPrepare`, `plotDraw`), the `…Autorange` functions of Model/PlotConf.lean | Spec/Limits.lean says which numbers an element shows (`Shows`, `ShownX`); induction over the commands of the preparation (`prepare_fits`) with determinism of the configurations (`shows_det`), an invariant for the drawing pass, monotonicity of the scale (C20).
C91 | Model/Axis.lean (`axisLayout`, `axisDraw`, `plotAxis`, `axesRender`), Model/ScaleConf.lean (`RunTicks`) | Spec/AxisDraw.lean describes the picture from the settings alone (points along and across the axis, extents of shaped texts, reserved room); both directions by unfolding the drawing functions against it (induction over ticks and labels, C83 for turned texts, C31 for turned boxes). Spec/AxisValues.lean: loop invariants of the tick loops (`Returns.invariant`).
C92 | Model/ScaleConf.lean (`scaleConfigureKind`, `scaleConfigureLayout`) | Spec/Placement.lean and `ScaleWords` of Spec/Options.lean list the forms; equivalence by case analysis of the reader's chain of tests and induction over the words; the violations are corollaries.
C93 | the `…Default` records of Model/PlotConf.lean, Model/Axis.lean, Model/Legend.lean | Spec/Defaults.lean writes out every field; the records are equal (unit conversions), then C90.
C94 | Model/PlotConf.lean (`linesCmd` … `backgroundCmd`), Model/Plots.lean, Model/Scale.lean | Spec/ElementPictures.lean describes places of values, shapes and pictures from the settings alone; each drawing function is shown to draw "a picture of this kind" (`DrawsA`), closed under sequencing (`chain_draws`); translation of the data is characterised pointwise (`positions_iff`, `lengths_iff`); both directions by cases on the translated data.
C95 | Model/Legend.lean (`rowsLayout`, `flowStep`, `flowLayout`, `legendSizes`, `legendBox`, `legendBorders`, `legendItems`, `legendRender`, `legendCmd`) | Spec/LegendPicture.lean gives the layout without loops: `Stacked` by running sums, `Flowing` by a list of rows that is `Broken` where it must be. The loop invariant `FlowInv` says the state after a prefix is the layout of such rows (`flowInv_step`), and `broken_unique` that there is only one way to break, which gives equivalence; the picture by `DrawsA`/`chain_draws` as in C94; apartness and containment from monotony of the running sums
C96 | PlotConf, Plots, Axis, Legend | composition of C88–C95 with determinism of the meaning of options (Lemmas/Settled)
C97 | PlotModule on top of the elements | induction over the command list with the environment as invariant; fold of `scale_fit` characterised by least/greatest (Lemmas/Fitted)
C98 | Plist, Eval, Draw, PlotModule, Svg composed | tokeniser soundness (Lemmas/PlistText), exact walk over settings, C97/C81, C34
C99 | Program (font choice, layer_create) on top of Cli and PlotModule | composition of C74 and C98 with the exact font search
C100 | Glyph | induction over the curve relation; insertion of virtual points commutes with appending the closing point
C101 | Api (state machine of calls) | induction over the history of calls
C102 | HatchExport (Svg + Intersect) | bounds on far lines; C34 and C62 composed; C94 for the bar
C103 | PlotConf, Axis, Legend (option tables) against the lists of the manual (Spec/Documented) | C90 (which arguments are accepted) with one acceptable argument per option
C104 | Scale, PlotConf (all elements but polygons) and both readings of the plot module | affine maps commute with translation and with least and greatest elements; a simulation between the settings of each element in both units, then induction over the commands in both readings; C97 for the plot
C105 | PlotModule (both readings), all element configurations | the automatic limits are a fold of minima and maxima, which commutes; configurations and pictures do not depend on automatic limits of other elements or on shapes already drawn; C97
C106 | PlotModule (both readings), all element configurations | set limits make the hints irrelevant: every stage agrees on states that differ only in hints; C97, C105 machinery
C107 | all argument readers (Units, Color, Data, Csv, Marker, Format, PlotConf) against Spec/Arguments | case analysis on the expressions and texts; induction over lists and files; C11 and C66 for the CSV dialect and the marker shapes
C108 | Raster (rasterize.cc, export_image.cc, draw_cmd.cc) over a model of the cairo context | invariant: the matrix stays the identity; induction over the shapes; matrix computation for texts
C109 | OptionCell: storage, pointer and the calls of constructors and destructors | invariant (memory holds the variables, counts balance), induction over the program
C110 | Files: stat and mkdir on a tree, the loop over the slashes of the path | induction over the rest of the path; the tree only grows along the path
C111 | Metric | rounding of the printed number (C69), one case per range
C112 | Streams: the open descriptors, what went to each of them, and the target of string streams; write, vdprintf and open are parameters | induction over the actions; case analysis of one action
C113 | the configuration functions of ScaleConf, Format, ColorMap and Units | from C92 and C107 (exact meaning of accepted arguments), inversion of their relations for the refusals
C114 | the option tables of PlotConf, Axis, Legend and Draw | every option writes one part of the configuration and the parts are read back separately (Lemmas/Reorder: two runs agree if they agree on each group), then induction over the commands with C97 and C98
C115 | Plist, Eval | from C46 (exact meaning of the tokens): the tokens without commas and quotes have the same derivation
C116 | Axis, Draw, TextLayout | the points of every glyph are in its box (hypothesis on fonts), glyph boxes add up to the text box, alignment and turning about the centre move the box (Props/AxisRoom), then C91_axes
C117 | Handles | every call is unfolded against a POSIX file system with descriptors and descriptions (parameter: how much each call transfers); sequences by induction
C118 | Handles | invariant of programs: open descriptors = those of the beginning and those of live objects, each owned once; induction over the program
C119 | Format, Time | strftime by its documented fields (Spec/Dates); the calendar lemmas of C39/C40 give the instant, fixed-width decimal fields give the order
C120 | Messages, ScaleConf, Format, Measure, Style, Data | the texts of the messages are modelled literally; each word list is compared with the dispatch it belongs to
C121 | Dirs | mutual induction over the tree a directory holds (Spec/Dirs), paths by C59
C122 | PlotConf, Axis, Legend, Draw, Data, Color, Plots, PlotModule | the meaning of every option depends on its arguments only through the value (Lemmas/SourceElements, by cases over the options); a congruence of the whole-plot specification of C97/C98 (Lemmas/Sources) carries that to plots and documents
C123 | Strptime, Time | strptime modelled after glibc for ten conversions; induction over the format, calendar by C17 and C119
C124 | Random, StringUtil | the generator is the list of its words; induction over the words, digits by C61
C125 | Random | linear arithmetic with modulo 2^64
C126 | Png, Image | blocks of a list of bytes, pixels by C36
C127 | Plots, Axis, Legend, PlotModule, Units | every picture and every option relation of C90–C98 commutes with scaling; induction over the two readings of the plot
C128 | Model/FileNames: `FileUtil::rm`, `mv` and `truncate` over the system of Model/Handles (names, files, descriptions of open files); POSIX `unlink`, `rename`, `truncate`, and arbitrary refusals | case analysis of the calls; the replacement of a file from C117 and a frame lemma for writing whole files that also holds when writing fails
