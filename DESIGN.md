# DESIGN — a Lean 4 model of clip (paulasmuth/fnordmetric, pinned commit)

The repository at the pinned commit is `clip`, a C++ program that turns a text document (property list /
s-expression) plus CSV, GeoJSON or inline data into a chart or a drawing and exports it as SVG.  The code was only
read, never built or run.  (This file is assembled by `tools/design.py`; the tables of sections 3, 6 and 7 are generated
from `properties.jsonl`, `tools/claims.txt`, the citations in the model, and `#print axioms`.)

## 1. Layout

* `lean/Verif/Model/*.lean` — the model, one file per source unit.  Every definition cites
  file and lines in `/repo`, and says where it simplifies.
* `lean/Verif/Spec/*.lean` — small specifications independent of the model (printers, calendars, UTF-8
  bit layout, what an SVG document shows, the meaning of a style, pictures as lists of paints, ...).  Some short
  specifications stand at the top of the file of their theorems, under a heading "Specification".
* `lean/Verif/Lemmas/*.lean` — helper lemmas.
* `lean/Verif/Props/*.lean` — the property theorems (named `Cnn_...`), with an `example` beside them showing that the
  hypotheses are met by a non-trivial case.
* `MANIFEST.json` — property → theorem names, status.
* `seeded/LOG.jsonl` — log of the wrong programs tried against the theorems, and the theorems tightened because of them.

A theorem whose name ends in `_partial` needs a hypothesis that the English property does not have.  In every such
case the reason is that the code violates the property without it; the violation is proved as a theorem of its own, listed
under the same property.  A property is `partial` in the manifest exactly when such a violation exists (or a part of the
statement is missing, which the note then says).

## 2. Modelling conventions

* Text: `Str = List Char`; bytes `UInt8`.  Where the code works on `char` and the property depends on bytes
  (UTF-8, buffers, images, hex dumps) the model works on bytes.
* C++ pointers to mutable results become returned values; `ReturnCode` becomes `Except`/`Option`/`Outcome`.
* Loops become structural recursion, a `foldl`, a step relation, or recursion over fuel with a distinct outcome; the
  termination theorems then state which fuel suffices, or that none does.
* Undefined behaviour, uncaught exceptions and endless loops are distinct outcomes (`Outcome.undefined`, `.thrown`,
  divergence), never totalised away.
* `double`.  Scales, ticks and limits are modelled over `ℝ` with a rounding parameter `Arith` (an arbitrary monotone
  rounding; `Arith.exact` is the identity), because there the properties depend on it.  Geometry (vectors, matrices,
  paths, layout, hatching, units, text placement) is modelled in exact real arithmetic; NaN, where the code produces it
  (division by zero), is the outcome `none`.  Infinities and signed zeros are not modelled.  Colour channels are exact
  rationals n/255 where single precision is exact.
* `size_t`/`uint64_t` are `Nat` unless the property is about wrap-around (times: `BitVec 64`).
* External code is a parameter, or modelled from its documentation: `std::stod` (number reader parameter), `getopt_long`
  (modelled from its documentation), `printf("%f")`-like formatting (exact decimal rounding, half to even), fribidi levels,
  harfbuzz shaping and FreeType outlines and fontconfig look-up (parameters, structure `TextEnv`), the file system (read: a
  partial function; write: a sequence of `open(O_TRUNC)` and partial `write` steps), char conversions as done by gcc on x86.

## 3. Plan and outcome per property

| id | property | model | proof | status | remark |
|---|---|---|---|---|---|
| C01 | S-expression text round trip | Sexpr: the parser as a machine over (input, stack) | induction over the tree with generalised stack | proved | all printable expression chains |
| C02 | S-expression parser accepts exactly the balanced documents | Sexpr: the parser as a machine over (input, stack) | induction over the tree with generalised stack | proved | lexically valid documents |
| C03 | Whitespace and comments between tokens do not matter | Sexpr: the parser as a machine over (input, stack) | induction over the tree with generalised stack | proved |  |
| C04 | The s-expression parser always terminates | Sexpr: step relation | well-founded measure; exact diverging set | partial | The code violates the property: a backslash outside a string loops forever. Negation proved with witness, exact characterisation of the diverging inputs proved. |
| C05 | Cloning an expression yields an equal, independent copy | Sexpr: chains of cells | structural induction | proved |  |
| C06 | Property list text round trip | Plist: tokenizer with look-ahead, recursive descent | induction over documents; length measure | proved |  |
| C07 | Every text has a property list result in bounded time | Plist: tokenizer with look-ahead, recursive descent | induction over documents; length measure | proved |  |
| C08 | Strict command dispatch | Eval: command walk over an abstract state and handler table | induction over the command list | proved |  |
| C09 | Unknown commands are passed through unchanged | Eval: command walk over an abstract state and handler table | induction over the command list | partial | Violated by the code: an unknown command is handed on together with everything after it. Counterexample, exact left-overs, and the positive case (all settings first) proved. |
| C10 | CSV round trip | Csv: parser over characters | induction over rows, fields, characters | partial | Round trip proved for every writer that terminates the last line (and for unterminated last lines not ending in an empty bare field). RFC 4180 allows omitting the last line break; then the code loses an empty last field (proved). |
| C11 | CSV parser is total and rejects malformed quoting | Csv: parser over characters | induction over rows, fields, characters | proved |  |
| C12 | CSV column extraction is bounds safe | Data, Csv | list induction; partition lemma | partial | Violated by the code: off-by-one in the row length check, a row exactly one entry too short throws instead of being reported (proved). |
| C13 | Grouping data partitions the series | Data, Csv | list induction; partition lemma | proved |  |
| C14 | UTF-8 encode/decode round trip | Utf8: bit operations | bit lemmas, induction over texts | proved | All code points below 2^21 (a superset of Unicode). C14_long_forms_fail documents two defects of the five/six-byte forms outside Unicode. |
| C15 | UTF-8/UTF-32 string conversion round trip | Utf8: bit operations | bit lemmas, induction over texts | proved | Texts without U+0000 (the code uses 0 as end marker). |
| C16 | UTF-8 validation accepts exactly well-formed text | Utf8: bit operations | bit lemmas, induction over texts | partial | Violated by the code in both directions (accepts garbage after ASCII; endless loop on stray continuation bytes), both proved. Completeness half proved. |
| C17 | Civil date to Unix time is the Gregorian calendar | Time: `BitVec 64` arithmetic, civil calendar | induction over years and months; modular arithmetic | proved | Stamps that fit 64 bits, i.e. all valid times until the year 9999 and far beyond. |
| C18 | ISO 8601 parsing accepts every valid date | Time: `BitVec 64` arithmetic, civil calendar | induction over years and months; modular arithmetic | partial | Violated by the code: the day is checked against the length of month number <day>, so 30/31 February are accepted (proved for every year). Every valid time is read back exactly (proved); the exact accepted set is C18_iso8601_exact. |
| C19 | Time arithmetic laws | Time: `BitVec 64` arithmetic, civil calendar | induction over years and months; modular arithmetic | proved |  |
| C20 | Linear scale maps the domain onto the unit interval | Scale: with rounding parameter | field arithmetic, induction over tick loops, divergence by invariants | proved | Linear scales map the range onto [0,1] and untranslate inverts translate; the _any_rounding theorem holds for every monotone rounding that fixes the end points. |
| C21 | Logarithmic scale and its inverse | Scale: with rounding parameter | field arithmetic, induction over tick loops, divergence by invariants | partial | The forward direction is proved for every base above one. The inverse is wrong in the code: C21_log_untranslate_fails is the counterexample theorem, C21_log_untranslate_max_partial what remains true. |
| C22 | Categorical scale spreads categories evenly | Scale: with rounding parameter | field arithmetic, induction over tick loops, divergence by invariants | partial | Positions and bounds are proved; the `invert` option is ignored for categorical scales (C22_inverted_ignored), which contradicts the full statement. |
| C23 | Scale fitting covers exactly the data | Scale: with rounding parameter | field arithmetic, induction over tick loops, divergence by invariants | partial | Exact and order independent on numbers; a rounded limit can leave a data point outside and a NaN datum sticks (both proved as counterexamples), so coverage is partial. |
| C24 | Tick layouts place every tick inside the plot | Scale: with rounding parameter | field arithmetic, induction over tick loops, divergence by invariants | partial | Tick values and positions of every layout are characterised; alignat, subdivide on logarithmic scales, align on inverted scales and exponential violate the documented behaviour, each with a counterexample theorem. |
| C25 | Tick layout always terminates with bounded output | Scale: with rounding parameter | field arithmetic, induction over tick loops, divergence by invariants | partial | Termination for every positive step in exact arithmetic; for exponential bases above one, termination is characterised exactly (lower limit and base of the scale, including infinite and NaN exponents), and the stepped layout ends exactly where the plain one does; negative steps, steps lost to rounding, bases of at most one and negative lower limits loop for ever (proved). |
| C26 | Typographic unit conversion | Units | case analysis, field arithmetic | partial | Conversions proved for pt/in/em/user/percent; the code violates the full claim: millimetres are never normalised by the converters that are given them, a rem with a millimetre font is ignored, and figure sizes in percent/em are accepted but give size 0 (separate theorems). |
| C27 | Hex colour round trip | Color | digit lemmas; sorted tables | partial | All well-formed hex colours proved (parse, print, round trip, exact single precision arithmetic). Refusal of malformed text is violated by the code: std::stoi throws (escaping exception) or accepts a non-hexadecimal second digit. |
| C28 | Colour maps interpolate between the configured stops | Color | digit lemmas; sorted tables | partial | Step maps fully; gradients at and between stops and below the first. Above the last stop the code dereferences the end iterator (C28_gradient_above). |
| C29 | Transform matrices compose | VMath, Path | ring normalisation, Mathlib matrices, induction over commands | proved | Exact arithmetic. Matrices are compared with Mathlib's matrices, rotation with multiplication by exp(-i a pi/180). Also the sorting and mean helpers of vmath.cc. |
| C30 | Transforming a path preserves its structure | VMath, Path | ring normalisation, Mathlib matrices, induction over commands | proved | Exact arithmetic. C30_circle adds that the Bezier circle is within 0.0273 % of the true circle. |
| C31 | Margins and alignment stay inside the parent box | GLayout | linear arithmetic | partial | Alignment and rotated bounds are proved in full. The margin box is inside only if the margins are non-negative and fit; C31_margin_outside proves the code violates the claim otherwise. |
| C32 | Bidirectional reordering is a permutation | TextLayout | permutation and run invariants | partial | proved for every non-empty list of levels; violated for an empty line: std::max_element over no levels is dereferenced (undefined). The read of bidi_levels[size()] before the bound check is not modelled. |
| C33 | Text cannot inject SVG markup | Svg: exporter; Spec: an SVG reader | induction over documents; reading back what was written | partial | text bodies: proved for every text. Attribute values: proved for values without ", < and &; the code violates the statement for the others (writes \" and leaves & and < raw). The attribute bug is only reachable through svg_add_text_elem_native, which nothing calls at this commit. |
| C34 | Exported SVG contains one element per drawing command, in order | Svg: exporter; Spec: an SVG reader | induction over documents; reading back what was written | partial | for colours with components in [0,1] and numbers below 2^30; outside, the code prints invalid colours or has undefined conversions (proved as violations) |
| C35 | Byte buffer behaves like a byte sequence | Buffer: cells with indeterminate values | refinement to byte sequences over all histories | partial | allocation always succeeds, unbounded sizes; violated by the code: self-assignment loses the bytes, the copy constructor leaves the mark uninitialised |
| C36 | Image pixel store round trip | Image | index arithmetic | partial | violated by the code: channels of 128/255 and more are read back negative (signed char); RGB images can neither be written nor read pixel-wise |
| C37 | String utilities | StringUtil | list induction | partial | Proved for all texts except: multi-character delimiters that overlap a part are cut elsewhere (proved), and replacing an empty pattern never finishes (proved). |
| C38 | JSON string tokens are decoded | Json: tokenizer, skipping | induction over values | partial | Violated by the code: escapes are never decoded (the raw text is returned, proved for all strings), and an unterminated string never returns (proved). Strings without escapes are exact. |
| C39 | GeoJSON points are read safely | GeoJson, GeoData: event reader over tokens | induction over documents | partial | Proved for documents of collections, features, multipoints, (multi)lines and (multi)polygons in two dimensions. Violated: every two-dimensional Point reads out of bounds (proved), and the other listed defects. |
| C40 | First error wins | Eval: command walk over an abstract state and handler table | induction over the command list | proved |  |
| C41 | Line/line intersection is correct | Intersect: lines, segments, hatching | real algebra; loop invariants | partial | Exact arithmetic. Soundness, completeness and parallel lines are proved for non-zero directions; a zero direction is reported as an intersection at NaN (C41_zero_direction), and near-parallel lines are treated differently depending on the sign of the direction (C41_orientation_matters). |
| C42 | Every data point of a line plot is drawn once, in its series | Plots: drawing loops of the plot elements | induction over the data | partial | Exact drawing list for all data, groupings and markers; needs at most as many labels as points, because the code reads outside the data otherwise (proved as C42_surplus_labels_undefined). End to end for GeoJSON polylines. |
| C43 | Format cycling | Format | digit lemmas; modular index | proved |  |
| C44 | Evaluation of a document selects the module and is deterministic | Eval: command walk over an abstract state and handler table | induction over the command list | partial | Holds when settings precede the module commands; with another order later settings are executed and handed to the module again (proved counterexample). |
| C45 | Command line flags | Flags: getopt_long from its documentation | induction over command lines | proved | relative to a model of getopt_long written from its documentation; short names with a special meaning to getopt are excluded |
| C46 | Property lists with unbalanced parentheses are refused | Plist | exact acceptance; witness | partial | Violated by the code: a missing ')' before ';' is accepted (result of expectAndConsumeToken ignored). Witness proved; exact acceptance characterised. |
| C47 | Property lists ending inside a string are refused | Plist | exact acceptance; witness | proved |  |
| C48 | Misspelled commands are reported | Eval: command walk over an abstract state and handler table | induction over the command list | partial | Violated for plots (proved: the unknown command is ignored, also for whole texts); holds for the draw module. |
| C49 | Limits are settled before anything is drawn | Eval: command walk over an abstract state and handler table | induction over the command list | proved |  |
| C50 | Data buffers deliver what was added | Data, Csv | list induction; partition lemma | proved |  |
| C51 | Inline data is loaded completely or refused | Data, Csv | list induction; partition lemma | partial | Violated for lists with another head: they load as one empty value (proved). |
| C52 | CSV columns become line data | Data, Csv | list induction; partition lemma | proved |  |
| C53 | CSV files work for points as they do for lines | Data, Csv | list induction; partition lemma | partial | Violated: CSV for points is always refused (proved); inline data works (proved). |
| C54 | GeoJSON polylines stay separate | GeoJson, GeoData: event reader over tokens | induction over documents | proved |  |
| C55 | UTF-16 conversion | Utf8: bit operations | bit lemmas, induction over texts | partial | Violated outside the BMP (proved), holds inside (proved). |
| C56 | Printed durations add up | Time: `BitVec 64` arithmetic, civil calendar | induction over years and months; modular arithmetic | partial | Violated from one year on: the blank behind the years is missing. |
| C57 | JSON tokens and skipping | Json: tokenizer, skipping | induction over values | proved |  |
| C58 | GeoJSON files are loaded completely | GeoJson, GeoData: event reader over tokens | induction over documents | proved | Documents without single Points (see C39). |
| C59 | Trimming and path joining | StringUtil | list induction | partial | Violated by the code: blank or empty texts are undefined behaviour (proved); holds for all others. |
| C60 | Numeric data is recognised exactly | StringUtil | list induction | partial | The accepted language is proved exactly; it contains texts without digits and lacks scientific notation. |
| C61 | Hex dumps and shell-safe names | StringUtil | list induction | proved |  |
| C62 | Hatching a shape ends and stays at the shape | Intersect: lines, segments, hatching | real algebra; loop invariants | partial | Proved for polygons without zero-length edges; with two such edges (a rectangle of height zero) the loop is proved never to end, with one the output contains NaN vertices. Stripes: all those that cross the shape, outwards until the first distance at which none does; a large offset draws nothing (C62_offset_empty). |
| C63 | All plot elements agree on where a data value is | Plots: drawing loops of the plot elements | induction over the data | partial | False of the code for horizontal errorbars (slanted), y grid lines and labels (mirrored), polygon holes (not scaled), vectors without direction (undefined): these are proved as violations. Holds for the other elements. |
| C64 | Data that does not fit the scale is refused | Plots: drawing loops of the plot elements | induction over the data | proved | What counts as a number is C60. |
| C65 | Per-point style lists repeat | Plots: drawing loops of the plot elements | induction over the data | proved |  |
| C66 | Marker shapes | Marker | table with independent shape list | partial | Violations: lists of shapes are never accepted; triangle-left-o looks like triangle-top-o. |
| C67 | Named paper sizes | Units | case analysis, field arithmetic | proved |  |
| C68 | Dimensions with units | Units | case analysis, field arithmetic | proved |  |
| C69 | Number labels | Format | digit lemmas; modular index | partial | The base format only writes the value if it is a power of the base (C69_base_truncates: all values between two powers get the same label); scientific is not normalised below 1; tick values pass through six-decimal texts (C69_tiny_ticks). |
| C70 | Which label formats are accepted | Format | digit lemmas; modular index | proved |  |
| C71 | Palette colours and colour maps in documents | Color | digit lemmas; sorted tables | partial | Violations: numbers read from data are shifted by one; colour 0 is accepted and gives an arbitrary colour; empty or huge numbers throw. |
| C72 | Placement of glyphs in a text line | TextLayout | permutation and run invariants | proved | exact real arithmetic; shaper is a parameter |
| C73 | Shapes are drawn with their styles | Svg: exporter; Spec: an SVG reader | induction over documents; reading back what was written | proved | composed with C34 through the specification's paints |
| C74 | The command line program produces output only on success | Cli: main with environment parameters; disk steps | case analysis; all crash points | partial | violated by the code: PNG export writes an empty file and reports success |
| C75 | Exporting to a file at any crash point | Cli: main with environment parameters; disk steps | case analysis; all crash points | partial | violated by the code: exporting is not atomic |
| C76 | Printed expressions read back | Sexpr: expr_inspect | induction over expressions | partial | Violated by the code: quotes are not printed, so quoted strings come back as bare words (exactly characterised); expressions made of words read back exactly. |
| C77 | Parameter lists are walked completely | Style, Eval: expr_walk_params | list induction | partial | Violated by the code: the walk ends silently after the first parameter without arguments (proved). |
| C78 | Styles in drawings | Style: readers | exact acceptance and meaning against independent grammar | proved | relative to the number reader (std::stod) as a parameter, for a palette that is not empty |
| C79 | Styles of plot elements | Style: readers | exact acceptance and meaning against independent grammar | partial | exact meaning proved with the code's own length of a millimetre; violated by the code: a colour after a hatch does not replace the hatch, solid or dash after none stay invisible, and millimetres are converted with the wrong factor |
| C80 | Switches, words, ranges and vectors | Style: readers | exact acceptance and meaning against independent grammar | proved | relative to the number reader (std::stod) as a parameter |
| C81 | Rectangles and the order of drawing | Draw: rectangle, text, fonts | equations against pictures | proved | exact real geometry; text and rectangle commands are all commands of the module at this commit |
| C82 | Text is set and placed correctly | Draw: rectangle, text, fonts | equations against pictures | partial | fribidi levels, harfbuzz shaping and FreeType outlines are parameters; violated by the code: an empty text is undefined behaviour, and a failing glyph leaves the glyphs before it on the page |
| C83 | Rotated text | Draw: rectangle, text, fonts | equations against pictures | proved | for texts that are not empty (the empty text is C82_empty_undefined) |
| C84 | Font fallback | Draw: rectangle, text, fonts | equations against pictures | proved | the shaper of one font is a parameter |
| C85 | Runs of a line | TextLayout | permutation and run invariants | partial | for one level per character; violated by the code on the empty line (undefined) |
| C86 | Document settings describe the page | Draw, Eval, Svg, Sexpr/Plist composed | composition of the theorems above | proved | sizes and font sizes accept units (em, %, none) that have no meaning there and then become zero: C26_other_sizes_zero |
| C87 | From document text to SVG | Draw, Eval, Svg, Sexpr/Plist composed | composition of the theorems above | partial | settings after the first drawing command are not supported by the code (C44_eval_order_fails), colours outside 0..1 are not exported correctly, so the styles must be proper; the plot module is a parameter |
| C88 | A plot only adds to the page | PlotModule, PlotConf, Axis, Legend: the two passes of plot_eval over all command tables | every command handler preserves the frame relation `Adds`; induction over the walk; the preparation changes only scales, so a failing preparation leaves the layer as it was | proved |  |
| C90 | Options of plot elements | the option tables of the fourteen elements, with all readers | every option of a table has exactly one effect per setting (`Covers`), induction over the block of options; acceptance by matching tables entry by entry | partial | The options of all elements, the axes and the legend are proved; partial because widths and offsets of bars given as a list are always refused (C90_inline_lengths), `axes` refuses tick-placement-x and -y (C90_axes_tick_placement), and `axis` ignores unknown options and throws without options (C90_axis_unknown, C90_axis_empty). |
| C89 | Automatic limits of a plot fit the data of all its elements | Model/PlotModule.lean (`plotPrepare`, `plotDraw`), the `…Autorange` functions of Model/PlotConf.lean | Spec/Limits.lean says which numbers an element shows (`Shows`, `ShownX`); induction over the commands of the preparation (`prepare_fits`) with determinism of the configurations (`shows_det`), an invariant for the drawing pass, monotonicity of the scale (C20). | partial | The limits are exactly least and greatest of all data (rectangle sizes, vector directions and polygon holes are not counted by the code, so rectangles can leave the plot area: C89_rectangle_outside; labels and markers of lines are not considered). Exact arithmetic: with float limits see C23_float_limit_outside. |
| C91 | An axis stands at the edge of the plot area and its labels name the values at which they stand | Model/Axis.lean (`axisLayout`, `axisDraw`, `plotAxis`, `axesRender`), Model/ScaleConf.lean (`RunTicks`) | Spec/AxisDraw.lean describes the picture from the settings alone (points along and across the axis, extents of shaped texts, reserved room); both directions by unfolding the drawing functions against it (induction over ticks and labels, C83 for turned texts, C31 for turned boxes). Spec/AxisValues.lean: loop invariants of the tick loops (`Returns.invariant`). | partial | C91_axis_partial is an equivalence for all axes except titles of axes with `align` x or y, which the code places by the wrong dimension of the text (C91_title_extent). C91_values_partial covers all placements but exponential-steps and subdivide on logarithmic scales, where the code prints other values (C24_exp_steps_labels, C24_subdivide_log_fails); duplicated categories are labelled where no data go (C91_duplicate_category). Measures such as 1em for paddings count as 1px (not converted). |
| C92 | Scale types and tick placements read as documented | Model/ScaleConf.lean (`scaleConfigureKind`, `scaleConfigureLayout`) | Spec/Placement.lean and `ScaleWords` of Spec/Options.lean list the forms; equivalence by case analysis of the reader's chain of tests and induction over the words; the violations are corollaries. | partial | The accepted settings and their effects are characterised exactly (C92_scale, C92_placement). Violated by the code: the documented list forms (linear), (log), (inverted), (categorical) are refused, inverted has no effect on categorical scales and is never undone, linear after categorical keeps the wider limits, categories of an earlier list stay accepted. |
| C93 | Unset options have their defaults | the `…Default` records of Model/PlotConf.lean, Model/Axis.lean, Model/Legend.lean | Spec/Defaults.lean writes out every field; the records are equal (unit conversions), then C90. | proved | the defaults are written out in Spec/Defaults.lean; the single axis command starts from a fresh linear scale, not from that of the plot (C93_axis) |
| C94 | Pictures of the elements of a plot | Model/PlotConf.lean (`linesCmd` … `backgroundCmd`), Model/Plots.lean, Model/Scale.lean | Spec/ElementPictures.lean describes places of values, shapes and pictures from the settings alone; each drawing function is shown to draw "a picture of this kind" (`DrawsA`), closed under sequencing (`chain_draws`); translation of the data is characterised pointwise (`positions_iff`, `lengths_iff`); both directions by cases on the translated data. | proved | Equivalences: the command succeeds with this result iff the picture is the specified one. Spec/ElementPictures.lean; includes the violations (labels and grid upside down, slanted error bars, unscaled holes). |
| C95 | A legend shows its items, in a column or in rows, inside its frame | Model/Legend.lean (`rowsLayout`, `flowStep`, `flowLayout`, `legendSizes`, `legendBox`, `legendBorders`, `legendItems`, `legendRender`, `legendCmd`) | Spec/LegendPicture.lean gives the layout without loops: `Stacked` by running sums, `Flowing` by a list of rows that is `Broken` where it must be. The loop invariant `FlowInv` says the state after a prefix is the layout of such rows (`flowInv_step`), and `broken_unique` that there is only one way to break, which gives equivalence; the picture by `DrawsA`/`chain_draws` as in C94; apartness and containment from monotony of the running sums | partial | C95_legend: a legend command succeeds exactly when it draws the picture of Spec/LegendPicture (and changes nothing else), for all settings. The layout loops are exactly the stacked and the flowing layout of the specification (C95_rows, C95_flow; the breaking into rows is unique). Partial: items are apart and inside only for sizes and distances that are not negative and if the frame is not cut to the plot area; a first item that is too wide begins below an empty row (C95_wide_first); the marker does not count for the size of an item; the border called top is drawn along the lower edge and that called bottom along the upper edge, and both are always solid |
| C96 | Each element of a plot is drawn exactly as its options and data say | PlotConf, Plots, Axis, Legend | composition of C88–C95 with determinism of the meaning of options (Lemmas/Settled) | proved | the deviations of the pictures from what one would expect are part of the specification (mirrored grid lines C63, clamped base lines etc.), see the notes of C94, C91 and C95 |
| C97 | A plot is read twice, and its picture is exactly the described one | PlotModule on top of the elements | induction over the command list with the environment as invariant; fold of `scale_fit` characterised by least/greatest (Lemmas/Fitted) | proved | real arithmetic in place of doubles |
| C98 | A text is accepted exactly if it describes a picture, and that picture is what is drawn | Plist, Eval, Draw, PlotModule, Svg composed | tokeniser soundness (Lemmas/PlistText), exact walk over settings, C97/C81, C34 | partial | C98_text is the full statement for pictures; C98_svg_partial needs colours in 0..1, which the code does not check (C87); real arithmetic in place of doubles |
| C99 | The program writes exactly the picture that the input describes, or nothing | Program (font choice, layer_create) on top of Cli and PlotModule | composition of C74 and C98 with the exact font search | proved | fontconfig and FreeType are parameters; the input text to picture relation is that of C98 |
| C100 | A glyph is drawn with the outline that the font gives it | Glyph | induction over the curve relation; insertion of virtual points commutes with appending the closing point | proved | the calls of FreeType that load the glyph are not modelled; coordinates are exact. Malformed contours: C100_truncates, C100_accepts (abort) |
| C101 | The C interface evaluates what it is given | Api (state machine of calls) | induction over the history of calls | partial | Violated by the code (proved for every history): clip_eval evaluates nothing. What the error message and the format setting do is proved exactly. |
| C102 | The export ends | HatchExport (Svg + Intersect) | bounds on far lines; C34 and C62 composed; C94 for the bar | partial | Hypotheses of the positive theorem: numbers below 2^29 (beyond, C34's undefined conversions) and no hatched shape with an edge of length zero; when it hangs is proved exactly (C102_hangs_iff), and that it happens for a hatched bar at the base line. With exactly one such edge the document contains coordinates that are not numbers (C62_nan_vertex). |
| C103 | The options of the manual are taken | PlotConf, Axis, Legend (option tables) against the lists of the manual (Spec/Documented) | C90 (which arguments are accepted) with one acceptable argument per option | partial | Proved for lines, bars, areas, errorbars, vectors, labels and grid; for points, rectangles, axis, axes and legend without the documented options the code refuses, which is proved as well; most options of documents and of the command line are ignored or refused (proved). |
| C104 | A plot does not depend on the units of its data | Scale, PlotConf (all elements but polygons) and both readings of the plot module | affine maps commute with translation and with least and greatest elements; a simulation between the settings of each element in both units, then induction over the commands in both readings; C97 for the plot | proved | Positions on any linear scale and automatic limits for every a > 0 (positions: a ≠ 0); the whole plot for plots without axes, grids and polygons (axes show the numbers, so they do change), given that the scale gets its limits from options or data (C104_plot, C104_plot_vertical). On logarithmic scales the statement is false for b ≠ 0 and is not claimed. |
| C105 | The elements of a plot can be rearranged | PlotModule (both readings), all element configurations | the automatic limits are a fold of minima and maxima, which commutes; configurations and pictures do not depend on automatic limits of other elements or on shapes already drawn; C97 | proved | For all elements except polygons, whose automatic limits are changed in both readings, and the commands that set something (axes, margins, scales, limits). |
| C107 | What is written as the argument of an option means exactly what the documentation says, and nothing else is accepted | all argument readers (Units, Color, Data, Csv, Marker, Format, PlotConf) against Spec/Arguments | case analysis on the expressions and texts; induction over lists and files; C11 and C66 for the CSV dialect and the marker shapes | partial | Exact acceptance and value for every kind of argument.  Violated by the code and therefore partial: lists of markers are never accepted, `triangle-left-o` is another triangle, millimetres in a size map are taken for pixels and percentages for zero, units of sizes in the data are dropped, `#` colours accept a sign or a blank. |
| C106 | With set limits, the elements of a plot do not influence each other | PlotModule (both readings), all element configurations | set limits make the hints irrelevant: every stage agrees on states that differ only in hints; C97, C105 machinery | proved | For every element of the plot module; commands that set something (axes, margins, scales, limits) are not left out. |
| C108 | An image shows the background and every shape of the drawing, in order, exactly where the drawing has it | Raster (rasterize.cc, export_image.cc, draw_cmd.cc) over a model of the cairo context | invariant: the matrix stays the identity; induction over the shapes; matrix computation for texts | partial | C108_image is the exact behaviour for all pages and drawings. Violated by the code: curves are left out, heights are rounded down, a shape with one path command makes everything fail, the styles of shapes drawn by the program are not looked at (only the background is painted), texts have the wrong size except at 72 dpi, and their transformation stays in force. The command line program does not call this function at this commit. cairo is represented by the documented meaning of its calls, not by pixels. |
| C109 | Optional values keep exactly one value alive | OptionCell: storage, pointer and the calls of constructors and destructors | invariant (memory holds the variables, counts balance), induction over the program | partial | Proved for all histories without self-assignment of a full option and without exceptions; for these the code is wrong, which is proved. |
| C110 | Making a directory with its parents | Files: stat and mkdir on a tree, the loop over the slashes of the path | induction over the rest of the path; the tree only grows along the path | partial | Proved for all paths that do not end in a slash; for these the code reports a failure (proved). |
| C111 | Numbers with metric prefixes are right | Metric | rounding of the printed number (C69), one case per range | proved | For numbers of at least a million millionth; below, the text is 0.0p. |
| C112 | Output streams deliver everything in order | Streams: the open descriptors, what went to each of them, and the target of string streams; write, vdprintf and open are parameters | induction over the actions; case analysis of one action | partial | Proved for string and buffer streams and for files the system writes whole; short writes, long printed texts and descriptor 0 are violated by the code. |
| C113 | The values of the manual are taken | the configuration functions of ScaleConf, Format, ColorMap and Units | from C92 and C107 (exact meaning of accepted arguments), inversion of their relations for the refusals | partial | Violated by the code (proved): category layouts and scale types without an argument are refused in the manual's parentheses, colour maps are refused with a pair of parentheses for each stop, and percentages are refused as lengths. |
| C114 | The order of options that set different things does not matter | the option tables of PlotConf, Axis, Legend and Draw | every option writes one part of the configuration and the parts are read back separately (Lemmas/Reorder: two runs agree if they agree on each group), then induction over the commands with C97 and C98 | proved | For the elements of plots and drawings (rectangle, text), and for the items of legends. |
| C115 | Blanks, commas and quotes around names do not matter | Plist, Eval | from C46 (exact meaning of the tokens): the tokens without commas and quotes have the same derivation | proved | Adding a comma can make a text refused (a comma before a name), so C115_writing speaks of accepted texts. |
| C116 | Axis labels and titles stay in the room reserved for them | Axis, Draw, TextLayout | the points of every glyph are in its box (hypothesis on fonts), glyph boxes add up to the text box, alignment and turning about the centre move the box (Props/AxisRoom), then C91_axes | partial | proved for unturned labels; violated for turned labels (C116_turned_label); the position along the axis is not restricted (end labels overhang) |
| C117 | Files are opened, read and written as documented | Handles | every call is unfolded against a POSIX file system with descriptors and descriptions (parameter: how much each call transfers); sequences by induction | partial | whole reads are right only if the system reads everything at once (violated otherwise: C117_short_read); O_APPEND is ignored (C117_append_ignored); a failed write loses the old contents (C117_failed_write) |
| C118 | File descriptors are closed exactly once | Handles | invariant of programs: open descriptors = those of the beginning and those of live objects, each owned once; induction over the program | proved |  |
| C119 | Labels of time axes show the instant of the tick | Format, Time | strftime by its documented fields (Spec/Dates); the calendar lemmas of C39/C40 give the instant, fixed-width decimal fields give the order | proved | strftime enters by its documented meaning for the calendar fields (hypothesis Standard, met by exStrftime_standard) |
| C120 | Error messages name what may be used | Messages, ScaleConf, Format, Measure, Style, Data | the texts of the messages are modelled literally; each word list is compared with the dispatch it belongs to | partial | violated by two messages: that for the data of points names csv, which is refused (C120_point_files_fails), and that for line styles does not name dash and dashed (C120_stroke_fails) |
| C121 | Listing directories and adding up the sizes of files | Dirs | mutual induction over the tree a directory holds (Spec/Dirs), paths by C59 | partial | violated by the code: files behind hidden names do not count (C121_hidden_lost), and the size of / is undefined (C121_root_undefined) |
| C122 | The notation of values does not matter | PlotConf, Axis, Legend, Draw, Data, Color, Plots, PlotModule | the meaning of every option depends on its arguments only through the value (Lemmas/SourceElements, by cases over the options); a congruence of the whole-plot specification of C97/C98 (Lemmas/Sources) carries that to plots and documents | proved | the settings of the page are left as they are; lists of labels, colours and sizes are not included (there a file appends to what was given before) |
| C123 | Times can be read back | Strptime, Time | strptime modelled after glibc for ten conversions; induction over the format, calendar by C17 and C119 | partial | violated by the code: a format that leaves a part out is undefined (C123_lacking_undefined), the length is ignored (C123_length_ignored), 30 February is accepted (C123_no_such_day); strftime and strptime enter by their documented meaning |
| C124 | Random texts | Random, StringUtil | the generator is the list of its words; induction over the words, digits by C61 | partial | violated by the code: an assertion refuses the word zero (C124_zero_aborts) |
| C125 | Clocks | Random | linear arithmetic with modulo 2^64 | proved | the clocks of the system are the input |
| C126 | Images in PNG files | Png, Image | blocks of a list of bytes, pixels by C36 | partial | violated by the code: the result of fopen is not checked (C126_unopened_undefined); what is handed to libpng is modelled, libpng is not |
| C127 | Resolution | Plots, Axis, Legend, PlotModule, Units | every picture and every option relation of C90–C98 commutes with scaling; induction over the two readings of the plot | partial | violated by the code where a unit is dropped: tick-length, paddings, widths and patterns given with a unit are numbers of pixels (C127_ticks); missing: plots with these options, and polygons with holes, whose corners the code neither scales nor moves (for drawings nothing is missing); fonts are assumed to scale with the resolution |
| C128 | Removing, renaming and truncating files | Model/FileNames: `FileUtil::rm`, `mv` and `truncate` over the system of Model/Handles (names, files, descriptions of open files); POSIX `unlink`, `rename`, `truncate`, and arbitrary refusals | case analysis of the calls; the replacement of a file from C117 and a frame lemma for writing whole files that also holds when writing fails | partial | Violated by the code: FileUtil::rm does not look at the result of unlink, so failure is not reported (C128_rm_silent). Everything else is proved. Names are not resolved through directories, and the calls of the system follow POSIX (trusted). |

No property is "not applicable".

## 4. Disagreements between the code and the properties

Each is proved (theorem in parentheses).  They are findings about the code at the pinned commit.

* A backslash outside a string makes the s-expression parser loop for ever (`C04_sexpr_termination_fails`); the set of
  such inputs is exact (`C04_sexpr_diverges_iff`).
* A missing `)` before `;` is accepted in property lists (`C46_plist_unclosed_paren_accepted`).
* An unknown command is handed on together with everything after it (`C09_passthrough_fails`), so settings after the first
  module command are executed and then handed to the module again (`C44_eval_order_fails`); an unknown command in a plot is
  ignored (`C48_plot_unknown_ignored`).
* CSV: an empty last field is lost without a final line break (`C10_csv_trailing_empty_lost`); a row that is one
  entry too short throws (`C12_extract_off_by_one`); CSV files for points are always refused (`C53_points_csv_refused`).
* UTF-8: validation accepts malformed text and can loop for ever (`C16_accepts_malformed`, `C16_diverges`); UTF-16 conversion
  truncates outside the BMP (`C55_utf16_truncates`).
* ISO 8601: 30 and 31 February are accepted (`C18_no_such_day_accepted`), as are hour 24 and trailing text; short inputs read
  out of bounds (`C18_short_input_undefined`).
* JSON: escapes are never decoded (`C38_json_escapes_kept`); an unterminated string never returns
  (`C38_json_unterminated_loops`).  GeoJSON: every two-dimensional Point reads out of bounds (`C39_point_undefined`); geometry
  collections are dropped; four-dimensional polygons are corrupted.
* String utilities: trimming a blank text is undefined (`C59_trim_undefined`); replacing an empty pattern never ends
  (`C37_replace_empty_pattern`); "numbers" without digits are accepted (`C60_not_numbers_accepted`).
* Scales: the inverse of a logarithmic scale is wrong (`C21_log_untranslate_fails`); `invert` is ignored for
  categories (`C22_inverted_ignored`); a NaN datum sticks (`C23_nan_sticks`); tick loops with negative steps, lost steps
  or bases of at most one never end (`C25_*_diverges`); `alignat`, `subdivide` on logarithmic scales, and exponential layouts
  misplace ticks (`C24_*`); rounded logarithms lose the tick at the minimum of a logarithmic axis and make `base` labels
  show the exponent before, e.g. 10² for 1000 (`C24_exponential_rounding`, `C69_base_rounding`).
* Lengths: millimetres are not normalised (`C26_mm_not_normalized`) or use a wrong factor (`C79_mm_wrong`).
* Colours: malformed hex colours throw or are accepted (`C27_nonhex_throws`, `C27_nonhex_accepted`); a colour map asked
  for a value above its last stop reads past the end (`C28_gradient_above`); palette indices from data are off by one
  (`C71_data_index`).
* Plots: horizontal error bars are slanted, y grid lines and labels are mirrored, polygon holes are not scaled, missing
  directions of vectors and surplus labels read out of bounds (`C63_*`, `C42_surplus_labels_undefined`).  Lists of marker
  shapes are never accepted (`C66_shape_lists_refused`).
* Widths and offsets of bars given as a list are always refused (`C90_inline_lengths`).  The automatic limits ignore the sizes
  of rectangles, the directions of vectors and holes of polygons (`C89_limits`, `C89_rectangle_outside`).
* `axes` refuses `tick-placement-x` and `tick-placement-y` (`C90_axes_tick_placement`); `axis` ignores unknown options
  (`C90_axis_unknown`) and throws a C++ exception without options (`C90_axis_empty`).
* The title of an axis with `align` `x` or `y` is placed by the wrong dimension of its text (`C91_title_extent`); the label of
  a category that is listed twice stands where no data go (`C91_duplicate_category`).
* The documented forms `(linear)`, `(log)`, `(inverted)` of scales and `(categorical)` of placements are refused
  (`C92_list_forms_refused`, `C92_placement_list_forms_refused`); `inverted` is ignored on categorical scales
  (`C92_inverted_categorical`) and never undone (`C92_inverted_stays`); `linear` after `categorical` keeps the wider limits
  (`C92_padding_stays`); categories of an earlier list stay accepted (`C92_stale_category`).
* Labels and horizontal grid lines of a plot are drawn upside down (`C94_labels`, `C94_grid`, C63), horizontal error bars are
  slanted (`C94_errorbars`), holes of polygons stay in units of the page (`C94_polygons`).
* In a legend, a first item that is wider than the legend leaves an empty row above it (`C95_wide_first`); the size of the
  marker is ignored in the layout; `border-top` is drawn along the lower edge and `border-bottom` along the upper one, and
  the line style of borders is ignored (`C95_legend` with the definition `LegendPicture`).
* A malformed contour of a glyph is silently cut off (`C100_truncates`); one that starts with a cubic control point aborts
  the program (`C100_accepts`).
* The C interface evaluates nothing and reports success for every text (`C101_eval_ignored`); the declared
  `clip_set_output_format` is not defined.
* Hatching a shape with two zero-length edges never ends (`C62_degenerate_diverges`).
* Text: an empty text is undefined behaviour (`C82_empty_undefined`, `C32_empty_undefined`).
* SVG: quotes in attribute values are escaped as `\"` (`C33_attr_quote`); huge numbers are undefined conversions
  (`C34_large_undefined`).
* Byte buffers lose their bytes when assigned to themselves (`C35_self_assign`); image channels of 128 and more are read
  back negative (`C36_bright_negative`).
* The image export (`page_export_png`, which the command line program does not call) looks at the old styles of shapes only,
  so that it paints nothing but the background (`C108_background_only`); it leaves out curves (`C108_curves`), rounds the
  height down (`C108_fraction`), and keeps the transformation of a text for the shapes after it (`C108_transform_stays`).
* The command line program writes an empty file for PNG and reports success (`C74_png_empty`); exporting is not atomic
  (`C75_not_atomic`).
* Styles: a colour after a hatch does not replace the hatch, and `none` is never undone (`C79_hatch_stays`,
  `C79_none_sticks`).  Parameter walks stop silently after the first parameter without arguments (`C77_stops_at_bare`).
* Hatching: the export of a picture hangs exactly if a hatched shape has two edges of length zero (`C102_hangs_iff`), for
  example a hatched bar with its value at the base line (`C102_bar_hangs`).
* Documented options that are refused: `shapes` of points, `sizes`, `sizes-x` and `sizes-y` of rectangles, `scale`,
  `tick-placement-x`, `tick-placement-y` and `border-syle` (as the manual spells it) of axes, `extra` of the legend
  (`C103_points_shapes`, `C103_rectangles_sizes`, `C103_axes_refused`, `C103_legend_extra`).
* The manual's document options `width`, `height`, `font-defaults`, `background-color`, `foreground-color`,
  `color-palette`, `text-language` and `text-script` have no effect (`C103_document_ignored`), like every other unknown part of
  a plot (`C48_text_ignored`); the manual's notation with parentheses and `;;` is refused (`C103_parentheses`), and so are the
  command line options `--in`, `--out`, `--stdin`, `--stdout`, `--format` and `--font-defaults` (`C103_command_line`).
* The ends of a `size-map` lose millimetres (taken for pixels) and percentages (taken for zero), and the units of `sizes`
  in the data are dropped altogether (`C107_size_map`, `C107_data_size`).
* `Option`: assigning an option with a value to itself reads a destroyed value (`C109_self_assignment`), and an exception during an
  assignment leaves a destroyed value behind (`C109_throw`).  `mkdir_p` reports failure for a new directory whose path ends
  in a slash, although it makes it (`C110_trailing_slash`).
* Output streams: what a short write leaves over is lost without an error (`C112_short_write`), printing 8192 bytes or more to
  a string raises (`C112_long_print`), and a file that the system gives descriptor 0 stays open while an exception says it could not be opened (`C112_descriptor_zero`).
* Values of the manual that are refused: `(categorical)` and `(categorical-bounds)` as layouts, `(linear)`, `(log)`,
  `(logarithmic)`, `(invert)`, `(inverted)` as scale types, colour maps with a pair of parentheses for each stop, and percentages
  as lengths (`C113_category_layouts`, `C113_scale_types_refused`, `C113_color_map_refused`, `C113_units`).
* A label of an axis that is turned (`label-rotate`) is turned about the point to which it is aligned and not about its
  centre, so that it can reach into the plot area (C116_turned_label).
* `File::openFile` ignores the documented flag `O_APPEND`: such a file is overwritten from its beginning
  (C117_append_ignored); `FileUtil::read` does not look at how much was read (C117_short_read), and a failed
  `FileUtil::write` has already emptied the file (C117_failed_write).  `FileUtil::rm` does not report that a file could not
  be removed (C128_rm_silent).
* Two messages advise wrongly: `points` with a CSV file is refused with a message that names `csv` (C120_point_files_fails),
  and the message for line styles omits `dash` and `dashed` (C120_stroke_fails).
* `FileUtil::du_c` skips hidden files and directories (C121_hidden_lost) and reads outside the string for `/`
  (C121_root_undefined).
* Reading a time in a format that leaves out a part reads members that never got a value (`C123_lacking_undefined`), beyond
  the given length (`C123_length_ignored`), and accepts 30 February (`C123_no_such_day`); the random generator aborts on the
  word zero (`C124_zero_aborts`); writing an image to a file that cannot be opened is undefined (`C126_unopened_undefined`).
* Units are dropped from measures that are never converted: `tick-length`, paddings, widths and the lengths of
  patterns given in pt, mm or em are taken as numbers of pixels, so that these plots change with the resolution
  (`C127_ticks`).

Dead code at this commit, modelled or not as stated in section 6: `style_read`, `color_palette_read`,
`svg_add_text_elem_native`, `expr_inspect` (used for messages only).

## 5. Trusted base

* Lean 4.33.0's kernel, and the three axioms `propext`, `Classical.choice`, `Quot.sound` of section 7.  No axiom is added,
  nothing rests on compiled code.
* The faithfulness of the reading of the C++ sources: nothing here was executed.  Section 6 lists the lines that
  were read into the model.
* The statements: the specifications in `lean/Verif/Spec` and those at the head of the property files.
* The assumptions about external code listed in section 2.

## 6. Modelled and unmodelled code

Lines of `/repo/src` cited by definitions of the model; everything else in these files is not modelled (licences, includes,
declarations, and what the last column says).

| file | lines modelled | model | not modelled |
|---|---|---|---|
| api.cc (77) | 24-77 | Api |  |
| api.h (73) | 63 | Api |  |
| arrows.cc (58) | 23-51 | PlotConf, Plots |  |
| cli.cc (199) | 53-199 | Cli, Program |  |
| color_map.cc (122) | 19-117 | Color, PlotConf |  |
| color_palette.cc (90) | 18-87 | Color |  |
| color_reader.cc (253) | 24-123, 151-165, 183-197, 202-220 | Color, Messages, PlotConf, Style |  |
| context.cc (34) | 26-30 | Program |  |
| data.cc (630) | 26-68, 103-300, 311-320, 333-551 | Csv, Data, Format, GeoData, Messages, PlotConf, ScaleConf | error texts |
| data.h (128) | 29-39 | Data |  |
| draw.cc (38) | 23-35 | Draw, Eval |  |
| draw/path.cc (33) | 19-30 | Draw |  |
| draw/rectangle.cc (82) | 25-79 | Draw |  |
| draw/text.cc (180) | 40-116, 131-177 | Draw |  |
| draw/text.h (49) | 22-34 | Draw |  |
| eval.cc (109) | 40-106 | Draw, Eval, PlotModule |  |
| figure/legend.cc (557) | 35-47, 54-560 | Legend |  |
| figure/legend_item.cc (201) | 32-200 | Legend |  |
| figure/legend_item.h (51) | 22-34 | Legend |  |
| format.cc (344) | 24-124, 135, 150-343 | Axis, Format, Messages |  |
| format.h (37) | 27 | Scale |  |
| graphics/brush.cc (21) | — | — | all: empty |
| graphics/color.cc (154) | 31, 71-134, 149-151 | Color |  |
| graphics/color.h (60) | 21-48 | Color |  |
| graphics/draw.cc (20) | — | — | all: empty |
| graphics/draw_cmd.cc (155) | 24-73, 84-94, 98-138 | Axis, Draw, Plots, Raster, Style, Svg |  |
| graphics/draw_cmd.h (55) | 28-34 | Raster, Svg |  |
| graphics/export_image.cc (45) | 27-43 | Raster |  |
| graphics/export_svg.cc (492) | 36-159, 177-353, 445-490 | Draw, HatchExport, Svg |  |
| graphics/font_lookup.cc (364) | 60-360 | Glyph, Program | the fontconfig and FreeType calls (parameters: search of a pattern, opening of a file, loading of an outline) |
| graphics/geometry.cc (73) | 51-70 | Path |  |
| graphics/geometry.h (66) | 26-33, 48-51, 56-59 | Path |  |
| graphics/image.cc (219) | 20-33, 79-212 | Image |  |
| graphics/image.h (78) | 22-24, 53-60 | Image |  |
| graphics/intersect.cc (214) | 18-211 | Intersect |  |
| graphics/layout.cc (107) | 21-106 | GLayout |  |
| graphics/measure.cc (297) | 65-117, 140-146, 173-285 | Messages, Units |  |
| graphics/measure.h (98) | 27-39 | Units |  |
| graphics/path.cc (325) | 133-323 | Path |  |
| graphics/path.h (122) | 24-72 | Path |  |
| graphics/png.cc (89) | 24-80 | Png | libpng itself (what is handed to it: Model/Png) |
| graphics/rasterize.cc (235) | 22-36, 43-198 | Raster | writing the surface as PNG; cairo itself is represented by the documented meaning of its calls |
| graphics/shape_hatch.cc (92) | 19-89 | HatchExport, Intersect |  |
| graphics/text.cc (64) | 26-45 | Axis | all: small constructors |
| graphics/text_backend.cc (54) | — | — | all: dispatch to the FreeType backend |
| graphics/text_backend_freetype.cc (132) | 26-128 | Draw | FreeType outline calls (parameter) |
| graphics/text_layout.cc (130) | 23-126 | TextLayout |  |
| graphics/text_layout.h (113) | 78-94 | Raster |  |
| graphics/text_shaper.cc (153) | 107-148 | Draw | 1-106: harfbuzz calls (parameter) |
| graphics/text_support.cc (105) | 22-102 | TextLayout |  |
| layer.cc (325) | 25-57, 67-130, 140-164, 184-271, 279-290, 307-322 | Draw, Messages, PlotConf, Program, Units |  |
| layer.h (93) | 23-42 | Draw, Style |  |
| layout.h (36) | 20-26 | GLayout |  |
| marker.cc (206) | 21-203 | Marker, PlotConf |  |
| plist_parser.cc (503) | 39-221, 239-410 | Plist |  |
| plot/areas.cc (366) | 37-50, 54-394 | PlotConf, Plots |  |
| plot/axis.cc (1289) | 41-43, 51-366, 389-398, 419-502, 507-524, 530-1288 | Axis, ScaleConf |  |
| plot/bars.cc (365) | 41-61, 66-371 | PlotConf, Plots |  |
| plot/errorbars.cc (325) | 38-325 | PlotConf, Plots |  |
| plot/grid.cc (123) | 40-121 | PlotConf, Plots, ScaleConf |  |
| plot/labels.cc (192) | 36-190 | PlotConf, Plots |  |
| plot/lines.cc (263) | 40-261 | PlotConf, Plots |  |
| plot/plotgen.cc (193) | 43-133, 137-190 | Eval, PlotConf, PlotModule, Plots |  |
| plot/plotgen.h (41) | 22-28 | PlotConf |  |
| plot/points.cc (282) | 41-278 | PlotConf, Plots |  |
| plot/polygons.cc (135) | 39-132 | PlotConf, Plots |  |
| plot/rectangles.cc (247) | 41-250 | PlotConf, Plots |  |
| plot/vectors.cc (252) | 40-257 | PlotConf, Plots |  |
| return_code.cc (59) | 18-33 | Messages | constructors of error values (the texts of err_invalid_value: Model/Messages) |
| return_code.h (78) | 27-67 | Api, Eval, Outcome |  |
| scale.cc (993) | 29-37, 43-168, 201-216, 225-296, 306-342, 353-645, 654-993 | Messages, PlotConf, Plots, Scale, ScaleConf |  |
| scale.h (188) | 30-55 | PlotConf, Scale |  |
| sexpr.cc (243) | 25-34, 44-69, 119-125, 135-145, 155-161, 179-240 | Data, Sexpr, Style |  |
| sexpr_conv.cc (222) | 25-40, 64-78, 92-111, 119-219 | Axis, Color, Eval, Format, Messages, PlotConf, Style, Units |  |
| sexpr_conv_impl.h (88) | 18-40, 61-85 | Format, ScaleConf, Style |  |
| sexpr_parser.cc (185) | 21-50, 79-182 | Sexpr |  |
| sexpr_util.cc (203) | 32-42, 55-139, 155-173 | Axis, Eval, PlotConf, Style |  |
| style.cc (32) | 20-30 | Raster | default constructors (modelled with style.h) |
| style.h (120) | 33-42, 47-60, 75-81, 86-89, 94-99, 111-116 | Style, Svg |  |
| style_reader.cc (334) | 27-309 | Messages, Style |  |
| style_util.cc (29) | 20-26 | Style |  |
| typographic_map.cc (36) | 18-33 | Units |  |
| typographic_reader.cc (150) | 24-59, 79-127, 139-147 | Draw, Messages, PlotConf, Style |  |
| units.cc (67) | 23-64 | Units |  |
| units.h (101) | 25-35, 85 | Units |  |
| utils/CivilTime.cc (75) | 24-44 | Strptime | strptime itself (modelled after glibc for ten conversions in Model/Strptime); one-line setters |
| utils/ISO8601.cc (293) | 19-264, 278-292 | Time |  |
| utils/UTF8.cc (212) | 19-102, 111-161, 166-209 | Utf8 |  |
| utils/UnixTime.cc (103) | 24-42, 53-85 | Format, Random, Strptime, Time | strftime itself (by its documented meaning in C119) |
| utils/algo.cc (27) | 18-24 | Data |  |
| utils/buffer.cc (194) | 20-95, 103-118, 124-150, 156-172, 182-184, 189-191 | Buffer |  |
| utils/buffer.h (65) | 57-61 | Buffer |  |
| utils/bufferutil.cc (61) | 18-60 | StringUtil |  |
| utils/csv.cc (189) | 19-186 | Csv, Data |  |
| utils/duration.cc (68) | 18-58 | Time |  |
| utils/exception.cc (126) | — | — | exception texts |
| utils/file.cc (150) | 23-68, 72-80, 86-146 | Cli, Handles | error texts; elsewhere the reading of files is represented by a partial function |
| utils/file.h (106) | 28-64, 96-97 | Handles |  |
| utils/fileutil.cc (231) | 30-211 | Cli, Dirs, FileNames, Files, Handles, StringUtil |  |
| utils/flagparser.cc (150) | 25-146 | Flags |  |
| utils/flagparser.h (54) | 22-27 | Flags |  |
| utils/geojson.cc (468) | 21-24, 29-465 | GeoData, GeoJson |  |
| utils/geojson.h (36) | 22-26 | GeoJson |  |
| utils/json.cc (403) | 41-245, 262-277, 282-401 | Json |  |
| utils/option.h (64) | 56-58 | OptionCell |  |
| utils/option_impl.h (157) | 19-140 | OptionCell | modelled in OptionCell; elsewhere represented by Lean's Option |
| utils/outputstream.cc (150) | 26-34, 45-88, 95-111 | Streams |  |
| utils/outputstream.h (163) | 62-105 | Streams |  |
| utils/random.cc (81) | 25-81 | Random |  |
| utils/stringutil.cc (484) | 92-106, 113-186, 203-261, 273-316, 322-350, 368-390, 409-482 | Data, StringUtil, Time, Utf8 |  |
| utils/stringutil_impl.h (92) | 37-89 | Metric |  |
| utils/wallclock.cc (75) | 28-33, 39-44, 50-72 | Random |  |
| vmath.cc (218) | 22, 34-37, 73-82, 88-206 | Path, VMath |  |
| vmath.h (162) | 31-39, 49-56, 66-77 | VMath |  |

Header files that are not listed contain only declarations or inline helpers that are modelled together with their source file.

## 7. Axioms per theorem

* none: `C35_move`, `C35_copy_mark`
* propext: `C05_clone`, `C08_strict_dispatch`, `C40_first_error_wins`, `C48_draw_unknown_partial`, `C49_plot_prepare_error`, `C14_long_forms_fail`, `C16_ascii_first_accepted`, `C19_add_sub`, `C37_compare`, `C43_custom_cycle`, `C43_custom_empty`, `C35_mark`, `C74_invalid`, `C77_stops_at_bare`, `C77_malformed`, `C112_string`, `C112_long_print`, `C112_grows`, `C112_file_partial`, `C112_error`, `C112_descriptor_zero`, `C112_standard`, `C112_print_error`, `C115_plain`, `C117_illegal`, `C117_size`, `C126_unopened_undefined`, `C128_rm_silent`, `C128_mv_iff`, `C128_mv`, `C128_truncate_iff`
* propext, Quot.sound: `C06_plist_roundtrip`, `C06_plist_accepts`, `C46_plist_unclosed_paren_accepted`, `C40_success_iff`, `C48_plot_unknown_ignored`, `C12_extract_missing`, `C12_extract_short_row_partial`, `C12_extract_off_by_one`, `C16_accepts_wellformed_partial`, `C16_continuation_unchecked`, `C16_accepts_malformed`, `C16_diverges`, `C19_from_exact`, `C38_json_string_partial`, `C38_json_escapes_kept`, `C38_json_unterminated_loops`, `C57_skip_terminates`, `C57_skip_sound`, `C57_skip_iff`, `C37_split_join`, `C37_split_join_char`, `C37_join`, `C37_replace`, `C37_replace_empty_pattern`, `C60_is_number`, `C60_decimal_accepted`, `C60_strip_zeros`, `C61_strip_shell`, `C61_is_hex`, `C65_cycle`, `C35_history`, `C35_truncate`, `C35_self_assign`, `C35_sized`, `C74_failure_no_output`, `C75_crash`, `C75_not_atomic`, `C77_params_partial`, `C80_enum`, `C109_observe`, `C109_self_assignment`, `C109_throw`, `C112_short_write`, `C112_close`, `C112_open`, `C117_refused`, `C117_opened`, `C117_write`, `C117_read`, `C117_seek`, `C117_truncate`, `C117_write_whole`, `C117_closed`, `C117_read_whole_partial`, `C117_round_trip`, `C117_append_ignored`, `C117_failed_write`, `C118_descriptors`, `C118_no_leak`, `C119_instant`, `C121_listing`, `C121_refused`, `C121_is_directory`, `C123_blanks`, `C123_leading_blanks`, `C128_rm`, `C128_truncate`, `C128_replace`
* propext, Classical.choice, Quot.sound: `C01_sexpr_roundtrip`, `C02_sexpr_balanced`, `C03_sexpr_layout_irrelevant`, `C04_sexpr_termination_fails`, `C04_sexpr_diverges_iff`, `C04_sexpr_terminates_partial`, `C07_plist_terminates`, `C46_plist_accepts_iff_partial`, `C47_plist_unterminated_string`, `C09_passthrough_fails`, `C09_passthrough_exact`, `C09_passthrough_partial`, `C44_eval_module_partial`, `C44_eval_unknown_module`, `C44_eval_order_fails`, `C48_text_ignored`, `C49_plot_two_phases`, `C10_csv_roundtrip`, `C10_csv_any_writing_partial`, `C10_csv_trailing_empty_lost`, `C11_csv_total`, `C11_csv_accepts_iff`, `C11_csv_unterminated`, `C11_csv_stray`, `C11_csv_lone_cr`, `C12_extract_column`, `C13_series_group`, `C13_partition`, `C50_databuf`, `C51_inline_list`, `C51_csv_arguments`, `C51_csv_column`, `C51_inline_other_list`, `C52_format`, `C52_polylines_csv`, `C53_points_csv_refused`, `C53_points_inline_partial`, `C54_geojson_lines`, `C14_utf8_roundtrip`, `C15_utf32_roundtrip`, `C15_count`, `C15_utf8_roundtrip`, `C16_truncated_refused`, `C55_utf16_bmp_partial`, `C55_utf16_truncates`, `C17_civil_to_unix`, `C17_every_date`, `C17_order`, `C18_iso8601_exact`, `C18_iso8601_roundtrip_partial`, `C18_iso8601_date`, `C18_no_such_day_accepted`, `C18_hour_24_accepted`, `C18_trailing_text_accepted`, `C18_short_input_undefined`, `C18_accepts_iff`, `C18_undefined_iff`, `C18_refuses_iff`, `C18_one_meaning`, `C19_diff`, `C19_units`, `C19_from`, `C19_nanoseconds`, `C56_inspect_parts`, `C56_inspect_text_partial`, `C56_inspect_years_fails`, `C39_geojson_document`, `C39_geojson_terminates`, `C39_line_shape`, `C39_point_undefined`, `C39_point_3d`, `C39_polygon_4d_corrupt`, `C39_multipolygon_empty_ring_undefined`, `C39_geometry_collection_dropped`, `C39_null_geometry_refused`, `C39_type_not_string`, `C39_not_object`, `C39_empty`, `C39_flat_refused`, `C39_multiline_dimensions`, `C39_delivered_before_error`, `C57_json_tokens`, `C57_json_skip`, `C58_geojson_polylines`, `C58_geojson_points`, `C58_failures`, `C37_split`, `C37_split_overlap`, `C37_replace_gone`, `C37_replace_empty_recreates`, `C37_prefix_suffix`, `C37_find`, `C59_trim_partial`, `C59_trim_undefined`, `C59_join_paths_partial`, `C59_strip_bytes`, `C59_chomp_partial`, `C60_not_numbers_accepted`, `C61_hex_print`, `C20_linear_any_rounding`, `C20_linear_exact`, `C21_log_translate`, `C21_log_untranslate_fails`, `C21_log_untranslate_max_partial`, `C21_log_nonpositive_min`, `C22_categorical`, `C22_bounds`, `C22_inverted_ignored`, `C22_category_index`, `C22_fraction_ignored`, `C23_fit`, `C23_order`, `C23_limits`, `C23_covers_partial`, `C23_float_limit_outside`, `C23_nan_sticks`, `C23_no_data`, `C24_linear`, `C24_interval`, `C24_linear_inside`, `C24_align`, `C24_align_inverted_outside`, `C24_alignat_ticks`, `C24_alignat_fails`, `C24_alignat_multiple_partial`, `C24_subdivide`, `C24_subdivide_log_fails`, `C24_exponential`, `C24_exponential_outside`, `C24_exp_steps`, `C24_exp_steps_labels`, `C24_exponential_rounding`, `C25_positive_step_terminates`, `C25_negative_step_diverges`, `C25_zero_step`, `C25_lost_step_diverges`, `C25_exponential_terminates`, `C25_exponential_diverges`, `C25_exponential_unbounded`, `C25_exp_steps`, `C29_product`, `C29_compose`, `C29_compose_points`, `C29_actions`, `C29_inverses`, `C29_from_deg`, `C29_sort`, `C29_mean`, `C29_vectors`, `C29_mirror`, `C30_transform`, `C30_transform_compose`, `C30_polygon_round_trip`, `C30_poly2`, `C30_rectangle`, `C30_circle`, `C30_to_polygon`, `C30_add_lines`, `C30_flatten`, `C31_margin_inside_partial`, `C31_margin_size`, `C31_margin_outside`, `C31_align`, `C31_rotate_bounds`, `C41_point_on_both`, `C41_parallel`, `C41_threshold`, `C41_orientation_matters`, `C41_zero_direction`, `C41_segment`, `C41_segments`, `C41_segment_complete`, `C41_segments_complete`, `C41_polygon`, `C62_hatch_partial`, `C62_degenerate_diverges`, `C62_flat_rectangle_diverges`, `C62_nan_vertex`, `C62_stripes_partial`, `C62_offset_empty`, `C62_ends`, `C42_lines_partial`, `C42_every_point_once`, `C42_inside`, `C42_geojson`, `C42_surplus_labels_undefined`, `C63_points_partial`, `C63_bars_vertical`, `C63_bars_vertical_offsets`, `C63_bars_horizontal`, `C63_areas`, `C63_errorbars_vertical_partial`, `C63_errorbar_caps`, `C63_rectangles`, `C63_vectors_partial`, `C63_polygons_partial`, `C63_grid_x`, `C63_arrow`, `C63_errorbars_horizontal_slanted`, `C63_errorbar_degenerate`, `C63_vectors_missing_direction`, `C63_polygon_holes_unscaled`, `C63_grid_y_mirrored`, `C63_labels_mirrored`, `C63_bar_labels_partial`, `C63_lengths_partial`, `C63_lengths_inverted`, `C63_plot_area`, `C64_numeric`, `C64_categorical`, `C66_named_shapes`, `C66_unknown_shape`, `C66_circles`, `C66_shape_lists_refused`, `C66_triangles_confused`, `C66_looks_partial`, `C26_inch`, `C26_points_invertible`, `C26_normalize_idempotent`, `C26_normalize_values`, `C26_typographic`, `C26_user_chain`, `C26_layer_size`, `C26_mm_not_normalized`, `C26_mm_font_ignored`, `C26_other_sizes_zero`, `C26_parse`, `C26_parse_no_number`, `C26_measure_or`, `C67_paper_sizes`, `C67_named_size`, `C67_default`, `C67_explicit_size`, `C68_size_units`, `C68_percent`, `C68_refused`, `C68_units`, `C68_size_map`, `C43_custom_inline`, `C43_custom_csv`, `C69_fixed`, `C69_integer`, `C69_scientific`, `C69_zero`, `C69_no_number`, `C69_base_partial`, `C69_scientific_small`, `C69_base_truncates`, `C69_tiny_ticks`, `C69_fixed_tie`, `C69_datetime`, `C69_datetime_undefined`, `C69_base_rounding`, `C70_words`, `C70_arguments`, `C70_refused`, `C70_bad_arguments`, `C70_effect`, `C27_parse`, `C27_parse_alpha`, `C27_parse_short`, `C27_round_trip`, `C27_round_trip_alpha`, `C27_extremes`, `C27_refused_partial`, `C27_nonhex_throws`, `C27_nonhex_accepted`, `C27_negative`, `C27_is_black`, `C28_steps`, `C28_gradient_stops`, `C28_gradient_between`, `C28_gradient_below`, `C28_clamp`, `C28_invalid`, `C28_gradient_above`, `C71_index`, `C71_lists`, `C71_map_read`, `C71_map_refused`, `C71_palettes`, `C71_data_index`, `C71_bad_index`, `C32_permutation`, `C32_order`, `C32_uniform`, `C32_empty_undefined`, `C72_ltr`, `C72_rtl`, `C72_height`, `C72_no_overlap`, `C72_error`, `C33_body`, `C33_attr_partial`, `C33_attr_quote`, `C33_attr_raw`, `C34_document`, `C34_defined`, `C34_flip`, `C34_large_undefined`, `C34_improper_color`, `C73_draw_shape`, `C73_draw_shape_onto`, `C35_reads`, `C36_write_other`, `C36_read_back_partial`, `C36_bright_negative`, `C36_write_back`, `C36_clear`, `C36_rgb`, `C36_convert`, `C45_parse`, `C45_unknown`, `C45_missing_value`, `C45_switch_value`, `C45_values`, `C74_export_svg`, `C74_errors`, `C74_png_empty`, `C74_usage`, `C74_options`, `C74_version`, `C74_help`, `C74_check_only`, `C76_inspect_partial`, `C76_inspect_strings`, `C78_fill`, `C78_stroke`, `C78_refused`, `C79_fill_partial`, `C79_stroke_partial`, `C79_hatch_stays`, `C79_none_sticks`, `C79_mm_wrong`, `C79_fill_refused`, `C80_switch`, `C80_pair`, `C80_vec2`, `C81_rectangle`, `C81_refused`, `C81_module`, `C82_draw`, `C82_text`, `C82_unique`, `C82_frame`, `C82_empty_undefined`, `C83_rotated`, `C84_fallback`, `C85_runs`, `C85_unique`, `C86_settings`, `C87_document_partial`, `C87_svg_partial`, `C88_adds`, `C88_refused`, `C90_lines`, `C90_points`, `C90_bars`, `C90_areas`, `C90_errorbars`, `C90_rectangles`, `C90_vectors`, `C90_labels`, `C90_polygons`, `C90_grid`, `C90_background`, `C90_unknown`, `C90_inline_lengths`, `C90_axes`, `C90_axis_partial`, `C90_axis_unknown`, `C90_axis_empty`, `C90_axes_tick_placement`, `C90_legend_item`, `C90_legend`, `C89_limits`, `C89_same_limits`, `C89_inside`, `C89_automatic`, `C89_lines`, `C89_areas`, `C89_rectangle_outside`, `C91_axis_partial`, `C91_axes`, `C91_values_partial`, `C91_values_default`, `C91_values_categories`, `C91_duplicate_category`, `C91_title_extent`, `C91_axis`, `C92_scale`, `C92_placement`, `C92_list_forms_refused`, `C92_placement_list_forms_refused`, `C92_inverted_categorical`, `C92_inverted_stays`, `C92_padding_stays`, `C92_stale_category`, `C93_lines`, `C93_points`, `C93_bars`, `C93_areas`, `C93_errorbars`, `C93_rectangles`, `C93_vectors`, `C93_labels`, `C93_polygons`, `C93_grid`, `C93_background`, `C93_legend_item`, `C93_legend`, `C93_axes`, `C93_axis`, `C94_lines`, `C94_points`, `C94_bars`, `C94_areas`, `C94_errorbars`, `C94_rectangles`, `C94_vectors`, `C94_labels`, `C94_polygons`, `C94_grid`, `C94_background`, `C95_legend`, `C95_rows`, `C95_flow`, `C95_apart_partial`, `C95_frame`, `C95_inside_partial`, `C95_width_partial`, `C95_wide_first`, `C96_background`, `C96_lines`, `C96_points`, `C96_labels`, `C96_bars`, `C96_areas`, `C96_errorbars`, `C96_rectangles`, `C96_vectors`, `C96_grid`, `C96_legend`, `C96_axes`, `C96_axis`, `C96_polygons`, `C97_plot`, `C97_area`, `C97_adds`, `C98_text`, `C98_page`, `C98_svg_partial`, `C99_font`, `C99_program`, `C100_outline`, `C100_closed`, `C100_extent`, `C100_accepts`, `C100_truncates`, `C101_eval_ignored`, `C101_format`, `C101_state`, `C102_export_partial`, `C102_unique`, `C102_hangs_iff`, `C102_bar_hangs`, `C103_documented`, `C103_documented_partial`, `C103_points_shapes`, `C103_rectangles_sizes`, `C103_axes_refused`, `C103_legend_extra`, `C103_document_ignored`, `C103_parentheses`, `C103_command_line`, `C104_positions`, `C104_limits`, `C104_points`, `C104_plot`, `C104_plot_vertical`, `C105_swap`, `C105_order`, `C105_leave_out`, `C107_number`, `C107_extent`, `C107_size`, `C107_position_x`, `C107_position_y`, `C107_measure`, `C107_hash_color`, `C107_color`, `C107_column`, `C107_texts`, `C107_data`, `C107_marker_partial`, `C107_markers`, `C107_color_map`, `C107_size_map`, `C107_data_size`, `C107_mapped_size`, `C107_data_color`, `C107_format`, `C106_leave_out`, `C106_combine`, `C108_image`, `C108_image_partial`, `C108_short`, `C108_curves`, `C108_fraction`, `C108_background_only`, `C108_text`, `C108_text_size`, `C108_transform_stays`, `C109_history_partial`, `C109_no_leak`, `C110_safe`, `C110_succeeds_partial`, `C110_trailing_slash`, `C110_exists`, `C111_metric`, `C111_zero`, `C111_plain`, `C113_layouts`, `C113_category_layouts`, `C113_formats`, `C113_scale_types`, `C113_scale_types_refused`, `C113_color_map`, `C113_color_map_refused`, `C113_units`, `C114_plot`, `C114_document`, `C115_blanks`, `C115_writing`, `C116_labels`, `C116_title`, `C116_axis`, `C116_axes`, `C116_defaults`, `C116_turned_label`, `C117_writes`, `C117_reads`, `C117_short_read`, `C119_label`, `C119_default`, `C119_iso`, `C119_order`, `C120_kinds`, `C120_ticks`, `C120_formats`, `C120_sizes`, `C120_units`, `C120_color_maps`, `C120_size_maps`, `C120_line_files`, `C120_point_files_fails`, `C120_stroke_partial`, `C120_stroke_fails`, `C120_switch`, `C121_size`, `C121_hidden_lost`, `C121_root_undefined`, `C122_plot`, `C122_document`, `C122_short_colors`, `C122_units`, `C122_sources`, `C122_solid`, `C122_draw_units`, `C123_read_back`, `C123_default`, `C123_rest_ignored`, `C123_lacking_undefined`, `C123_length_ignored`, `C123_no_such_day`, `C124_hex`, `C124_distinct`, `C124_alphanumeric`, `C124_all_texts`, `C124_zero_aborts`, `C125_units`, `C125_order`, `C125_monotonic`, `C125_days`, `C125_whole_days`, `C126_rows`, `C126_pixel`, `C126_blank_garbage`, `C127_plot_partial`, `C127_refused_partial`, `C127_document_partial`, `C127_ticks`, `C127_drawing`, `C127_drawing_document`
