#!/usr/bin/env python3
"""Generates /verif/properties.jsonl (documentation helper, not part of the proof)."""
import json, os
P=[]
def p(i,title,statement,quant,why,anchors):
    P.append(dict(id=i,title=title,statement=statement,quantifier=quant,why_tests_cant=why,anchors=anchors))

p("C01","S-expression text round trip",
 "If an expression tree is written out in the textual s-expression syntax (lists in parentheses, strings quoted with backslash/quote escaping, literals as bare words) and the text is parsed, the parser succeeds and returns exactly the tree that was written.",
 "all expression trees of any depth and width, all string contents, all well-formed literals",
 "Trees and strings are unbounded; a test only checks particular documents.",
 ["src/sexpr_parser.cc: expr_parse, expr_parse_string, expr_parse_literal","src/sexpr.cc: expr_create_list, expr_create_value"])
p("C02","S-expression parser accepts exactly the balanced documents",
 "Parsing a text made of lexically valid tokens succeeds if and only if its parentheses are balanced; otherwise an error is returned and no expression is delivered.",
 "all token sequences",
 "Unbounded nesting; every one of infinitely many unbalanced documents must be refused.",
 ["src/sexpr_parser.cc: expr_parse"])
p("C03","Whitespace and comments between tokens do not matter",
 "Inserting blanks, newlines, tabs or ';' line comments between the tokens of a document does not change the parse result.",
 "all documents, all layouts between tokens",
 "The space of layouts is infinite.",
 ["src/sexpr_parser.cc: expr_parse"])
p("C04","The s-expression parser always terminates",
 "For every input the parser returns (success or error) after finitely many steps.",
 "all input byte strings",
 "A test that hangs on one input says nothing about the others; termination is a statement about all inputs.",
 ["src/sexpr_parser.cc: expr_parse, expr_parse_literal"])
p("C05","Cloning an expression yields an equal, independent copy",
 "expr_clone returns a chain equal to the original (structure, kinds and text); with a count n it returns exactly the first n elements.",
 "all expression chains, all counts",
 "Recursive structure of unbounded depth.",
 ["src/sexpr.cc: expr_clone"])
p("C06","Property list text round trip",
 "If a document of properties (name: values;), with words, quoted strings, nested call-like lists and nested blocks, is written out in property list syntax and parsed, the resulting expression is exactly the one denoted by the document.",
 "all property list documents of any size and nesting, all string contents",
 "Unbounded documents.",
 ["src/plist_parser.cc: PropertyListParser::parse, parseProperty, parsePropertyValues, parsePropertyValueOrEnum, parsePropertyMap, getToken"])
p("C07","Every text has a property list result in bounded time",
 "For every input text the property list parser terminates after a number of token reads bounded by the input length, with either success or failure.",
 "all input byte strings",
 "Termination for all inputs cannot be tested.",
 ["src/plist_parser.cc: getToken, consumeToken, parsePropertyList, parsePropertyValues"])
p("C08","Strict command dispatch",
 "Walking a command list in strict mode calls, in document order, the handler registered for each command with exactly that command's arguments; an unknown or malformed command or a failing handler stops the walk with that error, after precisely the preceding commands have been executed.",
 "all command lists, handler tables and handler behaviours",
 "Quantifies over all handlers and histories of side effects.",
 ["src/sexpr_util.cc: expr_walk_map"])
p("C09","Unknown commands are passed through unchanged",
 "When a command list is walked in pass-through mode, the commands handed on to the next stage are exactly those not consumed by the current stage, in their original order.",
 "all command lists and handler tables",
 "Depends on every interleaving of known and unknown commands.",
 ["src/sexpr_util.cc: expr_walk_map","src/eval.cc: eval"])
p("C10","CSV round trip",
 "Writing a table with RFC 4180 quoting and reading it back with the CSV parser yields the same table.",
 "all tables (any number of rows/columns, any field content including quotes, commas, CR, LF)",
 "Unbounded content; the interaction of quoting and delimiters must hold for all strings.",
 ["src/utils/csv.cc: csv_parse, csv_parse_record, csv_parse_field_escaped, csv_parse_field_literal"])
p("C11","CSV parser is total and rejects malformed quoting",
 "On every input the CSV parser terminates without reading outside the input; an unterminated quoted field or stray characters after a closing quote or a lone carriage return give an error rather than a table.",
 "all byte strings",
 "All inputs.",
 ["src/utils/csv.cc"])
p("C12","CSV column extraction is bounds safe",
 "Extracting a named column from a parsed table returns one value per data row, in row order, or reports an error if a row is too short; it never terminates the program.",
 "all tables, column names",
 "A crash needs a specific row width; safety must hold for all.",
 ["src/utils/csv.cc: csv_extract_column","src/data.cc: data_load_csv"])
p("C13","Grouping data partitions the series",
 "Grouping a series by key returns groups in order of first appearance; every data index occurs in exactly one group, in increasing order inside the group, and two indexes share a group iff their keys are equal.",
 "all series lengths and key values",
 "All sequences of keys.",
 ["src/data.cc: series_group"])
p("C14","UTF-8 encode/decode round trip",
 "Encoding any Unicode code point and decoding the bytes yields the code point and consumes exactly the encoded bytes; the encoding agrees with the UTF-8 standard for every code point up to 0x1FFFFF.",
 "all code points, all following bytes",
 "1.1 million code points times arbitrary context; boundary errors hide between samples.",
 ["src/utils/UTF8.cc: encodeCodepoint, nextCodepoint"])
p("C15","UTF-8/UTF-32 string conversion round trip",
 "Converting a UTF-32 string to UTF-8 and back is the identity, and the code point count equals the length, for strings without NUL.",
 "all strings of code points",
 "Unbounded strings.",
 ["src/utils/UTF8.cc: convertUTF8To32, convertUTF32To8, countUTF8CodePoints"])
p("C16","UTF-8 validation accepts exactly well-formed text",
 "The validity check returns true iff the byte string is well-formed UTF-8, and always terminates.",
 "all byte strings",
 "All byte strings.",
 ["src/utils/UTF8.cc: isValidUTF8"])
p("C17","Civil date to Unix time is the Gregorian calendar",
 "Converting a civil date/time (year >= 1970, UTC offset) to a timestamp gives the number of microseconds since the epoch according to the proleptic Gregorian calendar; consecutive days differ by exactly 86400 s and the conversion is strictly monotone.",
 "all valid civil times",
 "Calendars have 400-year periodic exceptions; enumeration is impossible.",
 ["src/utils/UnixTime.cc: UnixTime(CivilTime)","src/utils/ISO8601.cc: isLeapYear, daysInMonth, daysInYear"])
p("C18","ISO 8601 parsing accepts every valid date",
 "A well-formed YYYY-MM-DDTHH:MM:SSZ text with in-range fields is parsed to exactly those fields, and out-of-range days are rejected.",
 "all field combinations",
 "All combinations of fields.",
 ["src/utils/ISO8601.cc: ISO8601::parse, parseDay"])
p("C19","Time arithmetic laws",
 "Adding a duration to a time point and subtracting it returns the original; the difference of two time points is symmetric; the accessors return the number of whole units and undo the constructors.",
 "all time points and durations (64 bit, wrap-around included)",
 "2^64 x 2^64 combinations.",
 ["src/utils/UnixTime.h","src/utils/UnixTime.cc","src/utils/duration.h"])
p("C20","Linear scale maps the domain onto the unit interval",
 "On a linear scale the minimum is drawn at 0, the maximum at 1 (swapped when inverted), positions are strictly monotone in the value, and untranslating a translated value returns it.",
 "all domains with min<max, all values, both orientations",
 "All real values.",
 ["src/scale.cc: scale_translate, scale_translate_linear, scale_untranslate_linear"])
p("C21","Logarithmic scale and its inverse",
 "On a logarithmic scale, untranslating a translated value returns the value.",
 "all domains and values",
 "Real analysis, not samples.",
 ["src/scale.cc: scale_translate_log, scale_untranslate_log"])
p("C22","Categorical scale spreads categories evenly",
 "With n categories the i-th category is drawn inside [0,1], categories are strictly ordered and equally spaced, symmetric around the middle, and the cell bounds interleave the categories.",
 "all n, i and paddings",
 "All n.",
 ["src/scale.cc: scale_translate_categorical, scale_layout_categorical, scale_layout_categorical_bounds"])
p("C23","Scale fitting covers exactly the data",
 "After fitting a series to an automatic scale, min and max of the domain are the smallest and largest value seen; the result does not depend on the order of the data, and explicit limits are never overridden.",
 "all data series, all orders, any number of series fitted to the same scale",
 "Order independence over all permutations.",
 ["src/scale.cc: scale_fit, scale_min, scale_max"])
p("C24","Tick layouts place every tick inside the plot",
 "Every tick produced by the linear, interval, aligned, exponential and subdivision layouts lies in the unit interval, ticks are in increasing order and evenly spaced as configured, and there is one label per tick.",
 "all scales, steps, begin/end values, divisions",
 "All numeric parameters.",
 ["src/scale.cc: scale_layout_linear, scale_layout_linear_interval, scale_layout_linear_align, scale_layout_linear_alignat, scale_layout_subdivide"])
p("C25","Tick layout always terminates with bounded output",
 "Computing ticks finishes for every step value and yields at most a fixed maximum number of ticks.",
 "all step values including zero and negative",
 "Non-termination cannot be tested.",
 ["src/scale.cc: scale_layout_linear_interval, scale_layout_linear_alignat, kMaxTicks"])
p("C26","Typographic unit conversion",
 "Converting between mm, pt and device units is invertible, and a dimension normalised for a device is idempotent under normalisation.",
 "all measures, DPIs, font sizes",
 "All values.",
 ["src/graphics/measure.cc","src/units.cc","src/layer.cc"])
p("C27","Hex colour round trip",
 "Parsing '#rrggbb' / '#rrggbbaa' / '#rgb' gives channel value/255 for each channel; printing a parsed colour returns the same text in canonical form; non-hexadecimal text is refused with an error.",
 "all 2^24 / 2^32 colours and all malformed strings",
 "Too many values; malformed strings are unbounded.",
 ["src/graphics/color.cc: Color::parse, to_hex_str","src/color_reader.cc"])
p("C28","Colour maps interpolate between the configured stops",
 "A step map gives the colour of the interval containing the value; a gradient map gives the linear interpolation of the two neighbouring stops, exact at the stops, for every value in [0,1].",
 "all stop tables, all values",
 "All values/tables.",
 ["src/color_map.cc: color_map_steps, color_map_gradient"])
p("C29","Transform matrices compose",
 "Matrix product is associative and applying a product equals applying the factors in turn; translation, scale and rotation act as documented and have the expected inverses.",
 "all matrices and points",
 "Algebraic laws over a field.",
 ["src/vmath.cc","src/vmath.h"])
p("C30","Transforming a path preserves its structure",
 "Transforming a path keeps the sequence of commands and maps every coordinate; transforming by two matrices successively equals transforming by the product; converting a polygon to a path and back is the identity.",
 "all paths, matrices, polygons",
 "Unbounded paths.",
 ["src/graphics/path.cc: path_transform, path_to_polygon_simple, path_from_polygon"])
p("C31","Margins and alignment stay inside the parent box",
 "The content box left after applying margins lies inside the parent box and has non-negative size; an aligned child has the requested edge coincide with the parent's edge.",
 "all boxes, margins, alignments",
 "All real values.",
 ["src/graphics/layout.cc: layout_margin_box, layout_align"])
p("C32","Bidirectional reordering is a permutation",
 "The visual order computed for a text line is a permutation of the logical runs; a purely left-to-right line keeps its order and a purely right-to-left line is reversed.",
 "all sequences of embedding levels",
 "All level sequences.",
 ["src/graphics/text_support.cc: text_reorder_bidi_line"])
p("C33","Text cannot inject SVG markup",
 "Text written into an SVG element body or attribute is escaped so that an XML reader recovers exactly the text and no markup can be injected.",
 "all strings",
 "All strings.",
 ["src/graphics/export_svg.cc: svg_body, svg_attr"])
p("C34","Exported SVG contains one element per drawing command, in order",
 "Exporting a page emits the elements in drawing order with the vertical axis flipped; the flip is an involution and keeps every coordinate of the page inside the page.",
 "all draw lists",
 "Unbounded lists.",
 ["src/graphics/export_svg.cc: export_svg, svg_add_path, svg_path_data"])
p("C35","Byte buffer behaves like a byte sequence",
 "After any sequence of append, truncate, clear, reserve and read operations the buffer's content equals the abstract byte sequence and never exceeds the allocated size.",
 "all operation histories",
 "All histories.",
 ["src/utils/buffer.cc"])
p("C36","Image pixel store round trip",
 "A pixel written to an RGBA image is read back with its quantised value and no other pixel changes; converting RGB to RGBA and back is the identity.",
 "all images, coordinates, colours",
 "All values.",
 ["src/graphics/image.cc"])
p("C37","String utilities",
 "Splitting a joined list of delimiter-free parts returns the parts; replacing all occurrences leaves none of a pattern that the replacement cannot recreate; prefix/suffix tests and ordering agree with their mathematical definition.",
 "all strings",
 "All strings.",
 ["src/utils/stringutil.cc"])
p("C38","JSON string tokens are decoded",
 "Reading a JSON string literal returns the text it denotes and an unterminated literal is an error.",
 "all JSON strings",
 "All strings; termination.",
 ["src/utils/json.cc: json_parse_string"])
p("C39","GeoJSON points are read safely",
 "A GeoJSON geometry with two-dimensional coordinates is delivered with exactly its coordinates; coordinate arrays of the wrong shape are an error, never an out-of-bounds access.",
 "all coordinate arrays",
 "All arrays.",
 ["src/utils/geojson.cc"])
p("C40","First error wins",
 "In a chain of fallible steps the first failing step's error is returned and no later step is executed.",
 "all step sequences",
 "All histories of effects.",
 ["src/return_code.h: try_chain"])
p("C41","Line/line intersection is correct",
 "When two lines are reported to intersect, the reported point lies on both; parallel lines are reported as not intersecting.",
 "all pairs of lines",
 "All real coordinates.",
 ["src/graphics/intersect.cc"])
p("C42","Every data point of a line plot is drawn once, in its series",
 "A line plot emits, per series, one path whose vertices are the scaled data points of that series in order; every data point appears in exactly one path and lies in the plot area if its value is inside the scale domain.",
 "all data sets and groupings",
 "All data sets.",
 ["src/plot/lines.cc: lines_draw"])
p("C43","Format cycling",
 "A custom label list labels the i-th tick with the (i mod n)-th label.",
 "all label lists, all tick indexes",
 "Unbounded indexes.",
 ["src/format.cc: format_custom"])
p("C44","Evaluation of a document selects the module and is deterministic",
 "Evaluating a document applies its size/dpi/font settings in order, then runs the selected module (default plot) on the remaining commands; an unknown module is an error and draws nothing.",
 "all documents",
 "All documents.",
 ["src/eval.cc: eval"])
p("C45","Command line flags",
 "Parsing a command line sets every flag named in it, in any of the usual spellings, to the value given; unknown options and missing values are errors; everything else is kept in order as positional arguments.",
 "all argument vectors",
 "Unbounded argument vectors.",
 ["src/utils/flagparser.cc"])
p("C46","Property lists with unbalanced parentheses are refused",
 "A property list text is accepted only if its parentheses are balanced; every text that is not a well-formed document is refused.",
 "all input texts",
 "All malformed texts must be refused.",
 ["src/plist_parser.cc: parsePropertyValueOrEnum, expectAndConsumeToken"])
p("C47","Property lists ending inside a string are refused",
 "A property list text that ends inside a quoted string is refused.",
 "all texts, all string contents, both quote characters",
 "All truncation points.",
 ["src/plist_parser.cc: getToken, parse"])
p("C48","Misspelled commands are reported",
 "A command that neither the document level nor the selected module knows is reported as an error; it is never silently ignored.",
 "all documents containing an unknown command, at every position, for the plot and the draw module",
 "All positions in all documents and all unknown names.",
 ["src/plot/plotgen.cc: plot_prepare, plot_draw, plot_eval","src/draw.cc: draw_eval","src/sexpr_util.cc: expr_walk_map"])
p("C49","Limits are settled before anything is drawn",
 "A plot is evaluated in two phases: all limit and auto-ranging commands of the whole document are executed before the first drawing command, whatever their order in the document; an error in the first phase means nothing is drawn.",
 "all documents, all handler behaviours",
 "Concerns all interleavings of commands.",
 ["src/plot/plotgen.cc: plot_prepare, plot_draw, plot_eval"])
p("C50","Data buffers deliver what was added",
 "A data buffer filled with any mixture of numbers and texts delivers exactly the added values, in the order they were added, both as texts and as numbers.",
 "all sequences of additions",
 "Unbounded histories of additions.",
 ["src/data.cc: databuf_add, databuf_len, databuf_to_text, databuf_to_numbers"])
p("C51","Inline data is loaded completely or refused",
 "Inline data written as a list in the document is loaded as exactly its values in order; a list in an unknown form is refused.",
 "all inline data lists",
 "Unbounded lists.",
 ["src/data.cc: data_load_simple, data_load_simple_inline, data_load_polylines2"])
p("C52","CSV columns become line data",
 "A line plot that refers to a CSV file gets the named columns (by default x and y), one entry per data row in row order; the file format is determined by the file extension unless given.",
 "all CSV tables, column names and column positions",
 "All tables.",
 ["src/data.cc: data_load_polylines2, data_load_polylines2_csv","src/utils/csv.cc: csv_extract_column"])
p("C53","CSV files work for points as they do for lines",
 "A point plot accepts the same data sources (inline lists, CSV, GeoJSON) as a line plot.",
 "all data sources",
 "All files and columns.",
 ["src/data.cc: data_load_points2"])
p("C54","GeoJSON polylines stay separate",
 "Loading a GeoJSON file with several polylines keeps every polyline separate: the recorded split positions cut the loaded coordinates into exactly the polylines of the file.",
 "all sequences of polylines of any length, including empty ones",
 "Unbounded numbers and sizes of polylines.",
 ["src/data.cc: data_load_polylines2_geojson"])
p("C55","UTF-16 conversion",
 "Converting UTF-8 text to UTF-16 keeps every character.",
 "all texts",
 "All of Unicode.",
 ["src/utils/stringutil.cc: StringUtil::convertUTF8To16, StringUtil::convertUTF16To8"])
p("C56","Printed durations add up",
 "The text printed for a duration lists its non-zero years, days, hours, minutes, seconds and milliseconds, separated by blanks; these components are in range and add up to the duration in whole milliseconds.",
 "all durations",
 "2^64 durations.",
 ["src/utils/duration.cc: inspect"])
p("C57","JSON tokens and skipping",
 "Whatever the white space and separators, a JSON text is read as its sequence of tokens; skipping a value (of a member nobody asked for) consumes exactly that value with everything nested in it, and comes to an end.",
 "all JSON values of any nesting, all layouts",
 "Unbounded nesting and layouts.",
 ["src/utils/json.cc: json_parse, json_parse_number, json_skip, json_skip_array, json_skip_object"])
p("C58","GeoJSON files are loaded completely",
 "Loading a well-formed GeoJSON file of lines (or multipoints) gives exactly the coordinates of its geometries in document order, with the lines kept apart, whatever foreign members, member order and layout the file has.",
 "all documents of any nesting, all layouts",
 "Unbounded documents.",
 ["src/data.cc: data_load_polylines2_geojson, data_load_points2_geojson","src/utils/geojson.cc: geojson_read_file"])
p("C59","Trimming and path joining",
 "Trimming removes exactly the blanks (line ends, slashes) at the respective end of any text; two paths are joined by exactly one slash.",
 "all texts, including empty and blank ones",
 "All texts.",
 ["src/utils/stringutil.cc: ltrim, rtrim, chomp, stripTrailingSlashes","src/utils/fileutil.cc: joinPaths","src/utils/bufferutil.cc: stripTrailingBytes"])
p("C60","Numeric data is recognised exactly",
 "A text is accepted as a numeric data value exactly if it is a decimal number; printing a number drops only redundant zeros behind the point.",
 "all texts",
 "All texts.",
 ["src/utils/stringutil.cc: isNumber, toString(double)","src/scale.cc: scale_translatev_numeric"])
p("C61","Hex dumps and shell-safe names",
 "A hex dump of a buffer, with or without separators and in both directions, determines the bytes; stripping unsafe characters yields a shell-safe text and leaves safe texts unchanged.",
 "all byte sequences, all texts",
 "All byte sequences.",
 ["src/utils/bufferutil.cc: hexPrint","src/utils/stringutil.cc: stripShell, isShellSafe"])
# none
p("C62","Hatching a shape ends and stays at the shape","Filling a shape with a hatch pattern ends for every shape, angle, offset, width and stride; every vertex drawn is a finite point on an edge of the shape.","all polygons, angles, offsets, strides, widths","A loop without an explicit bound; the shapes that make it run forever are degenerate polygons a test suite is unlikely to contain.",["src/graphics/shape_hatch.cc: shape_hatch","src/graphics/intersect.cc: intersect_poly_line"])
p("C63","All plot elements agree on where a data value is","Every element of a plot (points, bars, areas, errorbars, rectangles, vectors, polygons, labels, grid lines) draws a data value (x, y) at the same place of the plot area: at the fraction of the width and height that the scales assign to x and y.","all data sets, plot areas and translated coordinates","All data sets; element code is duplicated per element so agreement cannot be sampled.",["src/plot/points.cc: points_draw","src/plot/bars.cc: bars_draw_vertical, bars_draw_horizontal","src/plot/areas.cc","src/plot/errorbars.cc: errorbars_draw","src/plot/rectangles.cc","src/plot/vectors.cc","src/plot/polygons.cc","src/plot/grid.cc: plot_grid","src/plot/labels.cc: labels_draw","src/arrows.cc"])
p("C64","Data that does not fit the scale is refused","On a linear or logarithmic scale a series is accepted exactly if every text value in it is a number, on a categorical scale exactly if every value is one of the categories; accepted series yield one position per value, in order; otherwise the first offending value is reported.","all scales and all series of numbers and texts","All series and values.",["src/scale.cc: scale_translatev, scale_map_categories"])
p("C65","Per-point style lists repeat","If a list of n colours, sizes or shapes is given for a plot element, point i gets entry i mod n; without a list it gets the default.","all lists and indexes","Unbounded indexes.",["src/plot/points.cc: points_draw","src/plot/vectors.cc","src/plot/rectangles.cc","src/plot/bars.cc"])
p("C66","Marker shapes","Every documented marker name selects its own shape, unknown names are refused, a list of shapes is accepted if each of its entries is, and circle markers have the requested diameter and a border inside it.","all marker expressions, positions and sizes","All expressions.",["src/marker.cc: marker_configure, marker_configure_list, marker_create_circle"])
p("C67","Named paper sizes","A figure size given as the name of an ISO A paper format, upright or starred for landscape, gives a layer of exactly that width and height in millimetres; a starred name is the same sheet turned; each format is its predecessor cut in half; any other single word is refused.","every size name","unit tests try one or two names; the claim is about every name, known or unknown",["src/layer.cc: layer_resize"])
p("C68","Dimensions with units","A dimension text consisting of a number and a unit name is read as that number in that unit, in the size contexts (mm, pt, in, em, percent, bare zero and so on); text with an unknown unit is refused; and the map from percentages to distances is linear.","every number text and every unit text","the number and the suffix range over all strings",["src/sexpr_conv.cc: expr_to_measure, expr_to_number","src/layer.cc: layer_get_uconv_width","src/typographic_map.cc"])
p("C69","Number labels","A tick label in the fixed format is the tick's value correctly rounded to the configured number of decimals; in the integer format its integer part; in the scientific format a decimal number and a power of ten whose product is the value up to half a unit in the last place; in the base format the power of the base equal to the value.","every tick value, precision and base","the claim is about every real value and precision",["src/format.cc: format_decimal_fixed, format_decimal_scientific, format_base_fixed, format_integer, format_superscript","src/data.cc: value_to_float, value_from_float"])
p("C70","Which label formats are accepted","The label-format setting accepts exactly fixed, scientific, datetime, integer (as a word or a list), base and custom as lists, with their documented numbers of arguments; all else is refused.","every argument expression","every word and list",["src/format.cc: format_configure"])
p("C71","Palette colours and colour maps in documents","A colour may be given as the number of a palette colour (1 is the first, numbers beyond the end start over), as (rgb r g b) or (rgba r g b a); a colour map is a list of pairs of a position and a colour; everything else is refused. The built-in palettes contain exactly their published colours.","all colour expressions and palettes","all numbers, all lists",["src/color_reader.cc: expr_to_color, color_read_string, color_map_read","src/color_palette.cc"])
p("C72","Placement of glyphs in a text line","Within a laid-out line of text every glyph starts exactly where the glyphs before it end, on the base line; the bounding box is as wide as the sum of the glyph advances and reaches from the lowest descender to the highest ascender (base line included); a right-to-left line is the left-to-right line of the reversed spans moved to end at the origin; and a span that cannot be shaped makes the layout fail with its error.","every sequence of spans, every glyph sequence the shaper may return for them, both directions","depends on arbitrary shaper output and arbitrary span sequences; only an induction over both covers them",["src/graphics/text_layout.cc: text_layout_line, text_layout_span"])
p("C73","Shapes are drawn with their styles","Drawing a shape appends exactly one command to the page; the command paints the fill if the shape has a fill colour (hatched if requested), then the stroke (dashed if requested) if its line width is not zero, and nothing else; earlier commands are unchanged.","every shape, fill style, stroke style and prior drawing","ranges over all styles and all prior drawings",["src/graphics/draw_cmd.cc: draw_shape"])
# none
# none
p("C74","The command line program produces output only on success",
 "The clip program writes the exported SVG text, and only that, to the requested path (or the standard output) when the input was read, evaluated and exported without an error; in every other case it fails without writing anything. The last export path and format given count; the format follows from the file name if not given.",
 "all command lines, inputs and environments",
 "Unbounded command lines and all combinations of failures.",
 ["src/cli.cc","src/utils/flagparser.cc"])
p("C75","Exporting to a file at any crash point",
 "Stopping the program at any moment while it exports leaves every other file unchanged and the exported file with its old contents or a prefix of the new ones; a reported success means the complete new contents. Ideally the old contents are never lost before the new ones are complete.",
 "all previous contents, exported texts, crash points and short writes",
 "A test cannot stop the program at every point.",
 ["src/utils/fileutil.cc","src/utils/file.cc"])
p("C76","Printed expressions read back","Printing an expression and parsing the printed text gives back the expression; where quotes matter, quoted strings must come back as the same strings.","all expressions","Every nesting and every text must survive the round trip; tests cover a few.",["src/sexpr.cc:expr_inspect"])
p("C77","Parameter lists are walked completely","Walking a list of (name arguments...) parameters applies every known parameter in order up to the first failure; unknown ones are refused by name in strict mode and passed over otherwise; malformed entries are refused.","all parameter lists, handlers and states","Depends on the position of every entry and on arbitrary handlers.",["src/sexpr_util.cc:expr_walk_tmap"])
p("C78","Styles in drawings","In the draw module a fill setting is accepted exactly if it is a colour, solid(colour), hatch or hatch(settings), a stroke setting exactly if it is a width and a colour, solid, dash or one of these with settings; each accepted setting adds exactly its meaning (with the documented defaults for what it leaves out, the last of repeated settings counting) to the style, a refused one leaves the style unchanged.","all argument lists, prior styles, palettes and number readers","All nestings of settings, in every order and number.",["src/style_reader.cc","src/style.cc","src/color_reader.cc"])
p("C79","Styles of plot elements","A fill setting of a plot element is none, hatch with settings, or a colour; a stroke-style setting is none, solid or dash with settings; the fill or stroke afterwards is exactly what the setting says, a later setting replacing an earlier one, and a length of n mm is n millimetres.","all argument lists and prior styles","All sequences of settings.",["src/style_reader.cc: fill_style_read, stroke_style_read","src/typographic_reader.cc"])
p("C80","Switches, words, ranges and vectors","A switch is on for `on`, off for `off`, and refuses everything else; a setting with a fixed set of words accepts exactly those words; a range is two numbers; a vector is two lengths in known units.","all argument lists","All argument lists.",["src/sexpr_conv.cc: expr_to_switch, expr_to_enum, expr_to_float64_opt_pair, expr_to_vec2"])
p("C81","Rectangles and the order of drawing","A rectangle command succeeds exactly if each of its settings means something; then exactly one shape is added to the page: the rectangle with the given centre and size (default: the page) in the given style (default: that of the document). The commands of a drawing add their shapes in the order in which they are given, above what was there before; nothing else changes.","all command lists, pages and settings","All sequences of commands and settings.",["src/draw.cc: draw_eval","src/draw/rectangle.cc","src/draw/path.cc"])
p("C82","Text is set and placed correctly","Drawing a line of text succeeds exactly if it can be shaped; it then adds one shape per glyph: the outlines in visual order (rule L2), each glyph where the previous one ends, the line as a whole aligned to the given point; a text command means what its settings say, the fonts of the command taking precedence over those of the document.","all texts, fonts, shapers, embedding levels, positions and alignments","All texts and all results of the shaping libraries.",["src/draw/text.cc: text, text_eval","src/graphics/text_layout.cc","src/graphics/text_support.cc"])
p("C83","Rotated text","Text drawn with a rotation angle is the text drawn without it, turned clockwise by that many degrees about its anchor point.","all texts, angles, points","All angles and texts.",["src/graphics/draw_cmd.cc: draw_text"])
p("C84","Font fallback","A run of text is shaped with the first font that has a glyph for all of it; if there is none, with the last font.","all font lists and shapers","All font lists.",["src/graphics/text_shaper.cc: text_shape_run_with_font_fallback"])
p("C85","Runs of a line","A line of text is cut into maximal runs of one embedding level; together the runs are the line, and a run is right-to-left exactly if its level is odd.","all texts and embedding levels","All texts.",["src/graphics/text_backend_freetype.cc: text_analyze_bidi_line"])
p("C86","Document settings describe the page","The settings of a document (class, size, dpi, font, font-size) are accepted exactly if each of them has valid arguments; the page then has the size, resolution, font size and fonts given by the last setting of each name (all fonts, the last given first), the module selected is the last class, and everything that is not set keeps its default.","all lists of settings, all values of them, all pages before","Which settings a document repeats or leaves out, in which order, and with which values is unbounded; a test fixes one document.",["src/eval.cc: eval","src/layer.cc: layer_resize_cmd, layer_set_dpi_cmd, layer_set_font_cmd, layer_set_font_size_cmd","src/typographic_reader.cc: measure_read"])
p("C87","From document text to SVG","For the text of every document that gives its settings first, selects the draw module and then draws: it is accepted exactly if all its settings and drawing commands mean something, the picture then consists of exactly the shapes the commands describe, in their order, on a page as the settings describe, and the SVG file is well-formed XML that shows exactly these shapes.","all document texts of this form, all fonts and shapers, all numbers","The property composes parser, evaluator, drawing and export over all documents; end-to-end tests compare a few files.",["src/eval.cc: eval","src/plist_parser.cc","src/draw.cc","src/graphics/export_svg.cc"])
# none
# none
p("C88","A plot only adds to the page","Whatever commands a plot contains, and even if it is refused half way, evaluating it only adds shapes to the page: what was drawn before stays where it is, and size, fonts, background, palette and default style of the page are unchanged. If any data element of the plot has an unknown option or an option with wrong arguments, nothing of the plot is drawn.","all plots (lists of commands), pages, fonts and files","All command lists, all failures at any point.",["src/plot/plotgen.cc: plot_eval, plot_prepare, plot_draw","src/plot/plotgen.cc: plot_eval; src/plot/lines.cc, points.cc, bars.cc, areas.cc: every plot element"])
p("C90","Options of plot elements","Every data element, the grid, the background, the axes, the legend and its items accept exactly the options in their lists with arguments of the right form, and refuse every other block of options without drawing anything; after the options every setting has the value of the last option that concerns it (or, for data, labels and fonts, of all of them in order), and is otherwise the default.","all lists of options, all prior plots and pages","All option lists, any order and repetition.",["src/plot/lines.cc: lines_configure","src/plot/points.cc: points_configure","src/plot/bars.cc","src/plot/areas.cc","src/plot/errorbars.cc","src/plot/rectangles.cc","src/plot/vectors.cc","src/plot/labels.cc","src/plot/polygons.cc","src/plot/grid.cc","src/plot/plotgen.cc: plot_set_background","src/plot/axis.cc: plot_axes","src/plot/axis.cc: plot_axis","src/figure/legend.cc","src/sexpr_util.cc"])
p("C89","Automatic limits of a plot fit the data of all its elements",
 "A plot without scale settings takes as limits of its x and y axis the smallest and the largest number among the data of all its elements together, in whatever order they stand; these limits stay the same while the elements are drawn, so every data position of every element is between 0 and 1 and the lines and areas are drawn inside the plot area.",
 "all lists of plot commands, all data, all pages, every element at the moment it is drawn",
 "Each element takes part in the limits in a first pass and is drawn in a second one; a test sees a few combinations of elements, the property is about all of them.",
 ["src/plot/plotgen.cc: plot_prepare, plot_draw, plot_eval", "src/scale.cc: scale_fit, scale_translatev", "src/plot/lines.cc: lines_autorange, lines_draw", "src/plot/areas.cc: areas_autorange"])
# none
p("C91","An axis stands at the edge of the plot area and its labels name the values at which they stand",
 "An axis that is drawn without error consists of a line along its side of the plot area, a tick mark at every tick position, every label at its position with the configured distance, side, attachment and rotation, and the title centred along the axis and clear of the labels; nothing else is added to the page. Data with the value that a label names go to the place of the label. The command axes takes from the plot area the margins and exactly the room that the shown axes need for labels and titles, draws the shown axes around the remaining area, and this area is the plot area of the commands after it.",
 "all axis definitions, scales, placements of ticks and labels, fonts, plot areas and pages",
 "The geometry depends on real-valued text sizes and angles, and the number of ticks is unbounded; an image comparison sees a few pictures.",
 ["src/plot/axis.cc: axis_layout, plot_axis_vertical, plot_axis_horizontal, plot_axis, plot_axes", "src/scale.cc: scale_layout_*", "src/graphics/layout.cc: layout_margin_box, box_rotate_bounds"])
p("C92","Scale types and tick placements read as documented",
 "A scale type setting is accepted exactly if it is a sequence of the documented words (linear, log or logarithmic with an optional base, categorical with its categories, inverted) and the words act on the scale in order; a placement of ticks or labels is accepted exactly in the documented forms with the documented numbers of arguments, and denotes the placement with these numbers. A later setting replaces the effect of an earlier one, so linear after categorical is linear, and a second list of categories replaces the first.",
 "all argument lists of scale and placement settings, all scales and number parsers, all earlier settings",
 "The argument lists are arbitrary expression trees and the result depends on the history of earlier settings; tests show single settings.",
 ["src/scale.cc: scale_configure_kind, scale_configure_layout, scale_map_categories", "doc/plot/scale-types.md", "doc/plot/scale-layout.md"])
p("C93","Unset options have their defaults",
 "An option of a plot element, axis or legend that a file does not set has its default: lines are 1.5pt, points 4pt, strokes 1pt and black, bars and areas filled black without outline, polygons outlined and not filled, grid lines light grey, axes show the scales of the plot with labels and titles outside, ticks inside and the title of a vertical axis turned, legends stand at the top left, and texts have the fonts and font size of the document; all other options change just what they name.",
 "all elements, all documents (page, dpi, font size, fonts, scales) and all lists of options",
 "The defaults depend on real-valued dpi and font sizes and must survive every combination of the other options.",
 ["src/plot/lines.cc: lines_configure", "src/plot/points.cc: points_configure", "src/plot/bars.cc: bars_configure", "src/plot/axis.cc: plot_axis, plot_axes", "src/figure/legend.cc: plot_legend", "src/figure/legend_item.cc: legend_item_configure"])
p("C94","Pictures of the elements of a plot","Each element of a plot (lines, points, bars, areas, error bars, rectangles, vectors, labels, polygons, grid, background) draws exactly one picture, given in closed form by its settings and by where its values stand on the scales of the plot: which shapes, in which order, with which outline, fill, border, colour, and with which texts at which points; it fails exactly if a value has no place on its scale or a shape has no direction, and it changes nothing else.  The places of values (linear, logarithmic, categorical, inverted scales), of the base line and of lengths are specified separately.  Violations stated as such: labels and horizontal grid lines are upside down, horizontal error bars are slanted if the margins differ, holes of polygons are not moved, surplus labels and missing directions are undefined.","all plots, scales, options, data and fonts","every value can stand anywhere, in any number, with any option; a test sees one picture",["src/plot/lines.cc: lines_draw","src/plot/points.cc: points_draw","src/plot/bars.cc: bars_draw","src/plot/areas.cc: areas_draw","src/plot/errorbars.cc: errorbars_draw","src/plot/rectangles.cc: rectangles_draw","src/plot/vectors.cc: vectors_draw","src/plot/labels.cc: labels_draw","src/plot/polygons.cc: polygons_draw","src/plot/grid.cc: plot_grid","src/plot/plotgen.cc: plot_set_background","src/scale.cc: scale_translate"])
p("C95","A legend shows its items, in a column or in rows, inside its frame","A legend draws its background and borders, and for each item, in the order given, the label and the marker. The items are one below the other at the given distance or, in flow, in rows that are filled from the left and broken only where the next item has no room; the frame has the size of the items and the padding, and stands where the position says, inside the plot area less the margins. Items do not overlap, and are inside the frame if it fits.","all plots, legend settings, items, label sizes, fonts","Tests look at a few reference images; they do not cover all numbers and sizes of items, nor legends that are too small",["src/figure/legend.cc: legend_layout_item_rows, legend_layout_item_flow, legend_layout, plot_legend_borders, plot_legend_items, plot_legend","src/figure/legend_item.cc: legend_item_calculate_size, legend_item_draw"])
p("C96","Each element of a plot is drawn exactly as its options and data say","For every part of a plot (background, lines, points, labels, bars, areas, errorbars, rectangles, vectors, polygons, grid, legend, axis, axes): given any argument list and any state of the plot, the command succeeds with the new state s' if and only if all options are accepted, they give (starting from the documented defaults, last one wins) settings with which the data can be placed on the scales, and s' is the old state with exactly the shapes of the described picture added; for `axes` also with the remaining area as the new area of the plot.","all argument lists, all plot states (page, scales, margins, area) with a non-empty palette, all data files and fonts","argument lists, data and plot states are infinite; the claim is an equivalence (nothing else is accepted, nothing else is drawn)",["src/plot/lines.cc: lines_configure, lines_draw","src/plot/points.cc: points_configure, points_draw","src/plot/bars.cc: bars_configure, bars_draw","src/plot/areas.cc: areas_configure, areas_draw","src/plot/errorbars.cc: errorbars_configure, errorbars_draw","src/plot/rectangles.cc: rectangles_configure, rectangles_draw","src/plot/vectors.cc: vectors_configure, vectors_draw","src/plot/labels.cc: labels_configure, labels_draw","src/plot/polygons.cc: polygons_configure, polygons_draw","src/plot/grid.cc: plot_grid","src/plot/plotgen.cc: plot_set_background","src/figure/legend.cc: plot_legend","src/plot/axis.cc: plot_axis, plot_axes"])
p("C97","A plot is read twice, and its picture is exactly the described one","The plot module succeeds on a list of commands with the page L' if and only if: in a first reading the scale options set up the scales and every data element extends the automatic limits to exactly the least and greatest of its values (and the given limits); in a second reading each element draws its picture, in the order of the commands, with the scales of the end of the first reading, inside the page without its margins or what the last `axes` left over; commands with other names are skipped; L' is L with these shapes added and nothing else changed.","all lists of commands, all pages with a non-empty palette, all data files and fonts","the plots and their data are infinite, and limits couple all elements of a plot",["src/plot/plotgen.cc: plot_eval, plot_prepare, plot_draw, plot_get_clip","src/plot/lines.cc: lines_autorange","src/plot/polygons.cc: polygons_autorange","src/scale.cc: scale_fit"])
p("C98","A text is accepted exactly if it describes a picture, and that picture is what is drawn","For every text and every initial page: evaluation succeeds with the picture L' if and only if the text is written in the plist syntax (up to missing closing parentheses of value lists), its settings (which may stand anywhere; a drawing must not end with one) describe a page and a class, the class is plot or draw, and its other commands describe, on this page, the picture L'. The SVG file of an accepted text shows exactly its shapes, in order, on a white page of its size.","all texts (finite sequences of characters), all fonts, data files and number readers","texts are infinite; the claim is an equivalence from the characters of the input to the shapes of the output",["src/eval.cc: eval","src/plist_parser.cc: PropertyListParser","src/plot/plotgen.cc: plot_eval","src/draw.cc: draw_eval","src/graphics/export_svg.cc: export_svg"])
p("C99","The program writes exactly the picture that the input describes, or nothing","Called with one input and an SVG output, in any order and spelling of the options, the program succeeds if and only if the fonts named by the options and the default fonts can be loaded, the input (a file or the standard input) can be read, its text describes a picture on the empty page with these fonts (those of the command line first, the last one foremost), and the picture can be written as SVG; it then writes exactly this text to the output file or to the standard output and ends with status 0. Otherwise it ends with status 1 and writes nothing. A font name is a file if it is an absolute path or ends in .otf or .ttf, and otherwise a pattern for the system's font search.","all command lines with one input and a non-empty SVG output, all file contents, font systems and number readers","the claim is an equivalence from command line and file contents to output; both sides range over infinite sets",["src/cli.cc: main","src/context.cc: context_setup_defaults","src/layer.cc: layer_create","src/graphics/font_lookup.cc: font_load_best, font_load_defaults","src/eval.cc: eval"])
p("C100","A glyph is drawn with the outline that the font gives it","The path of a glyph draws the contours of its outline one after the other: from an on-point to the next a line, a quadratic curve through each conic control point with the implied point in the middle between two successive ones, a cubic curve for two cubic control points; each contour starts at its first point, or at its last one if only that is on the curve, or in the middle between the two, and is closed. Whatever the font file contains, the path consists of one closed part per contour and is nowhere outside the convex hull of the points. Violations stated as such: a malformed contour is silently cut off, one that starts with a cubic point aborts the program.","all outlines (any number of contours and points, any coordinates and flags)","outlines are arbitrary data from font files",["src/graphics/font_lookup.cc: font_get_glyph_path"])
p("C101","The C interface evaluates what it is given","clip_eval returns 1 exactly if the text describes a picture, clip_get_result then returns the exported picture, and clip_get_error the message of the last error. Violated by the code: in every history of calls clip_eval returns 1 for every text and clip_get_result returns nothing; only setting an unknown output format is reported, and the message stays until the next error.","all histories of calls on a context, all texts","histories are unbounded; a test sees single calls",["src/api.cc: clip_eval, clip_get_result, clip_get_error, clip_set_output_format"])
p("C102","The export ends","Exporting a picture ends with one document: whatever shapes are drawn, and however they are hatched, the export writes the document and returns. Violated by the code: the export hangs exactly if a hatched shape has two edges of length zero, such as a hatched bar with its value at the base line; an unhatched picture, and a hatched one without edges of length zero, is always exported.","all pictures: any number of shapes, paths and styles","the loop over the stripes has no bound, and whether it ends depends on every edge of every shape",["src/graphics/export_svg.cc: export_svg, svg_add_path, svg_add_path_fill_hatch","src/graphics/shape_hatch.cc: shape_hatch","src/plot/bars.cc: bars_draw"])
p("C103","The options of the manual are taken","Every option that the manual lists for a plot element (lines, points, bars, areas, errorbars, rectangles, vectors, labels, grid, axis, axes, legend) is an option that the element accepts, with suitable arguments. The same holds for the options of documents and of the command line.","every documented element and option, every state of the plot, every environment in which 0 is a number and some font can be loaded","the tables of the manual and of the code are written by hand, independently; examples show a few options only",["src/plot/lines.cc: lines_configure","src/plot/points.cc: points_configure","src/plot/rectangles.cc: rectangles_configure","src/plot/axis.cc: plot_axis, plot_axes","src/figure/legend.cc: legend_configure_position, legend_item_configure","doc/plot/rectangles.yaml: sizes","doc/plot/axes.yaml: tick-placement-x"])
p("C104", "A plot does not depend on the units of its data",
  "If all the values along one linear scale of a plot are converted by x ↦ a*x + b with a > 0, and the limits and the padding of the scale, if given, as well, then no point of any series moves; automatic limits are converted with the data. Hence a whole plot is drawn identically if the values along its horizontal or its vertical scale are given in other units (for instance degrees Fahrenheit instead of Celsius) in all its elements and limits, lengths by a alone, and everything else is the same; or it is refused in both cases.",
  "all series, all numbers a > 0 and b, all plots whose scale is linear, made of margins, limits, background, legend, lines, points, bars, areas, errorbars, rectangles, vectors and labels, all options (bars and areas that run along the scale start at zero: for them b = 0), all pages",
  "A test compares two plots of one series in two units; the property is about every conversion and every series.",
  ["src/plot/points.cc: points_draw, points_autorange", "src/scale.cc: scale_translate, scale_translatev, scale_min, scale_max, scale_fit"])
p("C105", "The elements of a plot can be rearranged",
  "Two neighbouring elements of a plot that draw something (grid, background, legend, axis, areas, bars, errorbars, labels, lines, points, rectangles, vectors) can be exchanged: the plot still succeeds, each of them draws the same shapes, and only the order of the shapes on the page changes. Hence every permutation of such elements draws a permutation of the same shapes. Leaving out a grid, a background, a legend or an axis takes away its shapes and nothing else.",
  "all plots, all elements with all options, all pages, all permutations",
  "There are infinitely many plots and permutations; a test can only try some.",
  ["src/plot/plotgen.cc: plot_eval, plot_prepare, plot_draw", "src/plot/lines.cc: lines_autorange", "src/scale.cc: scale_fit"])
p("C107","What is written as the argument of an option means exactly what the documentation says, and nothing else is accepted",
  "A plain number is a text that begins with a number.  A size is a number with a unit: mm (dpi/25.4 pixels), pt (dpi/72), px, em or rem (font size), or zero without a unit; a position likewise, with % of the width or height of the page instead of em.  A measure that is converted later keeps its number and unit.  A colour is `#rgb`, `#rrggbb` or `#rrggbbaa` with hexadecimal channels, the number of an entry of the palette, `(rgb …)` or `(rgba …)`.  Texts are words or a column of a CSV file; data are a column, a `(list …)` or words.  A marker is one of the documented shapes, a colour map is `gradient` or `steps` with positions and colours in turn, a size map is `(linear a b)`, a number format is one of the documented ones.  In each case: accepted exactly if of this form, with exactly this value.",
  "every argument expression, every page size and resolution, every palette, every file contents, every number reader",
  "the arguments are arbitrary expressions; tests can only try some of them, in particular of those that must be refused",
  ["src/sexpr_conv.cc: expr_to_float64, expr_to_number", "src/graphics/measure.cc: parse_measure, measure_normalize", "src/units.cc: unit_parse, unit_from_mm, unit_from_pt", "src/layer.cc: layer_get_uconv_size, layer_get_uconv_width, layer_get_uconv_height", "src/color_reader.cc: expr_to_color, color_map_read", "src/graphics/color.cc: Color::parse", "src/data.cc: data_load_simple, data_load_strings", "src/typographic_reader.cc: measure_map_read", "src/marker.cc: marker_configure", "src/format.cc: format_configure"])
p("C106","With set limits, the elements of a plot do not influence each other",
  "In a plot whose four limits are set (limit-x, limit-y or the -min/-max forms), leaving out any element (polygons, grid, background, legend, axis, areas, bars, errorbars, labels, lines, points, rectangles, vectors) takes away exactly what it drew: everything else is drawn as before, in the same order. And combining: if the plot with common commands D and elements A succeeds, and so does the plot with D and elements B, then the plot with D, A and B succeeds and shows what is common, then what A shows, then what B shows.",
  "all plots whose limits are set, all elements with all options and data, all pages",
  "There are infinitely many plots; a test can only try to leave out some elements of some of them.",
  ["src/plot/plotgen.cc: plot_eval, plot_prepare, plot_draw", "src/scale.cc: scale_fit, scale_min, scale_max", "src/plot/polygons.cc: polygons_autorange"])
p("C108","An image shows the background and every shape of the drawing, in order, exactly where the drawing has it",
  "Exporting a page as an image paints the background colour everywhere and then, for every shape in order, its fill (solid, or the hatched outline) and its stroke (colour, width, dash pattern), with every point (x, y) of the page at (x, height - y); what one shape paints does not depend on the shapes before it. A text is painted glyph by glyph at the transformed positions, in its size and colour.",
  "all pages, all drawings with all styles, all texts and transformations",
  "Drawings are unbounded lists of shapes and the drawing context is a state machine whose settings could leak from one shape to the next; a test compares a few pictures.",
  ["src/graphics/export_image.cc: page_export_png", "src/graphics/rasterize.cc: Rasterizer, cairo_set_path, drawShape, drawText, clear", "src/graphics/draw_cmd.cc: draw_shape"])
# none
p("C109","Optional values keep exactly one value alive","For every program that constructs, copies, moves, assigns and destroys optional values (Option<T>): nothing undefined happens, every option holds exactly the value it was last given, moved-from options are empty, and every contained value is destroyed exactly once; self-assignment and an exception during an assignment leave the options as they were.","all sequences of operations on any number of options, all values","a test runs a few sequences; lifetimes must be right in every history",["src/utils/option_impl.h: Option::Option, Option::~Option, Option::operator=, Option::get, Option::value_or","src/utils/option.h: Option"])
p("C110","Making a directory with its parents","FileUtil::mkdir_p makes the directory and those it is in that are missing, and changes nothing else; it succeeds exactly if nothing on the way is a file and the system allows it. If it fails, nothing but missing directories on the way has been made. FileUtil::exists tells whether something is there, and raises an exception exactly if the path goes through a file.","all trees of files and directories, all paths, all failures of the system","a test has a few directories; the property is about every file system and every spelling of the path",["src/utils/fileutil.cc: FileUtil::mkdir_p, FileUtil::mkdir, FileUtil::exists, FileUtil::isDirectory"])
p("C111","Numbers with metric prefixes are right","StringUtil::formatNumberMetric shows a number by a decimal number of at most a thousand and the letter for its power of ten, within five percent; numbers from a tenth to a thousand have no letter.","all real numbers","ranges of numbers meet at nine boundaries; a test tries a few numbers",["src/utils/stringutil_impl.h: StringUtil::formatNumberMetric"])
p("C112","Output streams deliver everything in order",
 "Whatever sequence of writes and prints goes to an output stream, its target grows by exactly these texts in order, and the number returned is the number of bytes delivered. A stream on a file closes its file when it is destroyed, and only that; errors of the system are raised as exceptions. (Violated: a text of 8192 bytes or more cannot be printed to a string; when the system takes only part of a text the rest is lost silently; a file that gets descriptor 0 is reported as failed and stays open.)",
 "all sequences of writes and prints, all texts, all behaviours of the operating system's write, vdprintf and open",
 "Depends on the history of operations and on how much the operating system takes at each call.",
 ["src/utils/outputstream.cc: OutputStream::printf, FileOutputStream::openFile, FileOutputStream::write, StringOutputStream::write, BufferOutputStream::write","src/utils/outputstream.h"])
p("C113","The values of the manual are taken",
"Every tick layout, number format, scale type, colour map and length unit that the manual documents is accepted where an option asks for one, and means what the manual says: the layouts with the numbers given (eight divisions for a subdivision without a number), the formats with the number of digits given (one if none is given), a logarithmic scale with the base given (ten if none is given), categories in the order written, the stops of a colour map in the order written, and lengths in px, mm, pt and em.",
"every number, category, colour and environment of the plot",
"the values range over all numbers, lists of categories and lists of stops",
["src/scale.cc: scale_configure_kind, scale_configure_layout", "src/format.cc: format_configure", "src/color_reader.cc: color_map_read", "src/typographic_reader.cc: expr_to_size", "src/layer.cc: layer_get_uconv_size", "doc/plot/scale-layout.md", "doc/plot/scale-types.md", "doc/plot/number-format.md", "doc/plot/color-maps.md", "doc/typographic.md"])
p("C114","The order of options that set different things does not matter",
"The options of a plot element can be given in any order, as long as options that set the same thing (such as limit-x and limit-x-min, or color and stroke-color) keep their order among each other: the picture is the same, and a document is refused in one order exactly if it is refused in the other. This holds for all elements of a plot, for the items of a legend, for the rectangles and texts of a drawing, and for any number of elements at once.",
"every document, every permutation of the options of each of its elements that keeps the order within each group of options that set the same thing, every environment and page",
"there are factorially many orders of the options of every document",
["src/plot/lines.cc: lines_configure", "src/plot/points.cc: points_configure", "src/plot/bars.cc: bars_configure", "src/plot/areas.cc: areas_configure", "src/plot/errorbars.cc: errorbars_configure", "src/plot/rectangles.cc: rectangles_configure", "src/plot/vectors.cc: vectors_configure", "src/plot/labels.cc: labels_configure", "src/plot/polygons.cc: polygons_configure", "src/plot/axis.cc: plot_axis, plot_axes", "src/figure/legend.cc: plot_legend", "src/sexpr_util.cc: expr_walk_map"])
p("C115","Blanks, commas and quotes around names do not matter",
"Two texts with the same tokens give the same picture, or are both refused: blanks, line breaks, kinds of quotes and escapes can be chosen freely. Commas can be put or left out, and names can be quoted or not: two accepted texts that differ in these only have the same meaning, and leaving all commas and such quotes out of an accepted text gives an accepted one.",
"all pairs of texts that differ in this way only, every environment and page",
"all texts and all ways to write them cannot be enumerated",
["src/plist_parser.cc: PropertyListParser::parse, getToken, parseProperty, parsePropertyValues, parsePropertyValueOrEnum, parsePropertyMap", "src/eval.cc: eval"])
p("C116","Axis labels and titles stay in the room reserved for them","With the labels and the title on the outer side of each axis (the default), unturned labels and any title rotation, no point of a label or title that `axes` draws lies inside the area that remains for the plot, nor outside the area the plot had before less the margins: labels lie between the label gap and the label gap plus the label room, the title beyond them within its own room. This holds for every font whose glyph outlines stay in their boxes and for all left-to-right texts. Turned labels violate it: a label of the bottom axis turned by 90 degrees is turned about the middle of its upper edge and reaches into the plot area when it is wider than twice the gap.","all fonts (as glyph metrics and outlines), label texts, positions, font sizes, gaps, rotations of the title, page sizes and resolutions","the geometry depends on the metrics of every glyph of every font and on every rotation angle; tests compare a few rendered images",["src/plot/axis.cc: axis_layout, axis_layout_labels, axis_layout_title, plot_axis_vertical, plot_axis_horizontal, plot_axes","src/graphics/text.cc: text_measure_label","src/graphics/text_layout.cc: text_layout_line"])
p("C117","Files are opened, read and written as documented","Opening a file with any combination of the documented flags fails exactly in the documented cases and otherwise gives the documented contents, position and rights; reads return the contents from the position on and advance it, writes put the bytes at the position, so that consecutive writes give the bytes one after the other; seeking, size and truncation act on position and contents only. Writing a whole file either leaves exactly the given bytes or raises, leaves other files alone, and what was written is what is read. Whatever happens no descriptor stays open. Violations: the append flag is ignored and overwrites the file; reading a whole file returns uninitialised bytes without an error when the system reads less than everything (files of more than 2 GiB); a failed write loses the old contents.","all flags, file systems, contents, positions, sequences of operations, and all decisions of the operating system (failures and short transfers)","short transfers and failures depend on the operating system and cannot be provoked in unit tests",["src/utils/file.cc: File::openFile, File::read, File::write, File::seekTo, File::size, File::truncate","src/utils/file.h: kOpenFlags","src/utils/fileutil.cc: FileUtil::read, FileUtil::write"])
p("C118","File descriptors are closed exactly once","Whatever sequence of opening, moving, cloning, reading, writing and destroying of file objects a program performs, and whichever of these operations fail, no descriptor is closed twice, two objects never own the same descriptor, and when all objects are destroyed exactly the descriptors of the beginning are open.","all sequences of operations on any number of file objects and all decisions of the operating system","ownership must be right for every history of moves, clones and failures",["src/utils/file.cc: File::File, File::~File, File::clone, File::openFile"])
p("C119","Labels of time axes show the instant of the tick","With the format `datetime`, the label of a tick whose value is a non-negative number of seconds since 1970 is the one instant (day of the Gregorian calendar, hour, minute, second, UTC) that value lies in, written in the configured format; without a format it is written `YYYY-MM-DD hh:mm:ss`. Such labels sort alphabetically exactly as the instants sort in time, two ticks have the same label just when they lie in the same second, and a label in the ISO 8601 format is read back by the time reader as the same second.","every non-negative value of a tick (below 2^64 microseconds), every label format made of text and the calendar fields, every label shorter than 256 bytes","values range over nearly six hundred thousand years with leap years and centuries; tests look at a few dates",["src/format.cc: format_datetime, format_configure_datetime","src/utils/UnixTime.cc: UnixTime::toString","src/utils/ISO8601.cc: ISO8601::parse"])
p("C120","Error messages name what may be used","When a value is refused because it is not one of a fixed set (kind of scale, placement of ticks, label format, page size, unit, colour map, size map, data format, line style, switch), the message repeats the value and lists words such that exactly the listed words are accepted at that place: every listed word can be used and every word that is not listed is refused with that error.","every place with a fixed set of values, every word written there","there are infinitely many words that must be refused; tests try a typo",["src/return_code.cc: err_invalid_value","src/scale.cc: scale_configure_kind, scale_configure_layout","src/format.cc: format_configure","src/layer.cc: layer_resize","src/data.cc: data_load_polylines2, data_load_points2","src/color_reader.cc: color_map_read","src/typographic_reader.cc: size_map_read","src/style_reader.cc: stroke_style_read","src/graphics/measure.cc: parse_measure"])
p("C121","Listing directories and adding up the sizes of files","Listing a directory tells the callback exactly the names in it that are not hidden, in the order of the system, until it asks to stop; something that is no directory is refused. The size of a directory is the number of bytes of all files in it and in the directories inside it, and computing it finishes.","every directory tree (any depth, any number of files), every callback, every spelling of the path","trees are unbounded in depth and width",["src/utils/fileutil.cc: FileUtil::ls, FileUtil::du_c, FileUtil::isDirectory, FileUtil::size"])
p("C122","The notation of values does not matter","Giving the data of an element as a list in the document or as a column of a CSV file, a colour as #rgb, #rrggbb, rgb(...) or a palette number, and a length in another unit, never changes the picture as long as the values meant are the same: the plot is drawn identically, or refused in both cases. The same holds for colours, fills, strokes, positions and sizes in drawings.","all plots and documents, and all ways to replace any number of data sources, colours and lengths in the options of their elements (including axes, legends and their items; in drawings rectangle and text) and in their margins by others with the same value","the set of equivalent notations of a document is infinite (arbitrary file contents, quoting, dialects, units) and every option of every element has its own reader",["src/data.cc: data_load_simple, data_load_strings, data_load_points2, data_load_polylines2","src/color_reader.cc: expr_to_color","src/sexpr_conv.cc: expr_to_number, expr_to_vec2","src/plot/lines.cc: lines_configure","src/plot/points.cc: points_configure","src/plot/bars.cc: bars_configure"])
p("C123","Times can be read back","A time written in a format that mentions year, month, day, hour, minute and second and read in the same format is the same time stamp, without the fraction of the second; a format that leaves one of them out gives a result with the parts that were read, the text is read up to the given length only, and days that do not exist are refused.","all instants of the years 1970 to 9999 and all formats made of ordinary characters and the conversions %Y %m %d %H %M %S %F %T %R %%","there are infinitely many formats, and the calendar has special cases a sample of dates misses",["src/utils/CivilTime.cc: CivilTime::parseString","src/utils/UnixTime.cc: UnixTime::parseString, UnixTime::toString, UnixTime::UnixTime"])
p("C124","Random texts","The text of a random number of 64, 128, 256 or 512 bits has 16 hexadecimal digits for every 64 bits and is the bits the generator produced, so that different numbers have different texts and no generator output is refused; a random alphanumeric text has exactly the wanted number of characters, digits and capital letters only, and every such text can occur.","all sequences of words the generator may produce, all lengths","a test sees a handful of random values; zero words are practically never produced in a test",["src/utils/random.cc: Random::random64, Random::hex64, Random::hex128, Random::hex256, Random::hex512, Random::alphanumericString"])
p("C125","Clocks","Seconds, milliseconds and microseconds of the same instant are one another rounded down; a later instant never has an earlier time in any unit; the difference of two readings of the monotonic clock is the time between them to a microsecond. A number of days from now is the instant that many times 24 hours later, to a microsecond, at the same time of day for whole days.","all instants a system clock can report in the next half million years","tests cannot choose the time that is read",["src/utils/wallclock.cc: WallClock::unixSeconds, WallClock::unixMillis, WallClock::unixMicros, MonotonicClock::now", "src/utils/UnixTime.cc: UnixTime::daysFromNow"])
p("C126","Images in PNG files","The PNG file of an image has its size, kind of pixels and eight bits for every channel, and pixel (x, y) of the file is pixel (x, y) of the image; if the file cannot be opened an error is returned.","all images of both pixel formats and all sizes, all pixels","row and pixel offsets depend on width, height and format together; a test image of one size can agree by accident",["src/graphics/png.cc: pngWriteImageFile","src/graphics/image.cc: Image::Image, Image::getPixel, Image::clear"])
p("C127","Resolution","A plot or drawing on a page whose size is given in millimetres or points and which has no lengths in pixels is the same picture at every resolution: with k times as many dots per inch every point, line width, dash, hatch, marker and glyph is k times as far away and k times as large, the colours and the order of the shapes are the same, and the document is refused at one resolution if and only if it is refused at the other.","all plots, all drawings, all documents, all positive real factors k","a test compares two resolutions for one plot; a single default or padding that is a number of pixels shows only where it is used",["src/units.cc: unit_from_mm, unit_from_pt, unit_from_em","src/graphics/measure.cc: parse_measure, measure_or","src/layer.cc: layer_get_uconv_size, layer_get_uconv_font_size","src/figure/legend.cc: plot_legend, legend_layout","src/plot/plotgen.cc: plot_eval, plot_prepare, plot_draw","src/plot/axis.cc: plot_axes, axis_layout, axis_set_defaults","src/plot/lines.cc: lines_draw","src/plot/bars.cc: bars_draw"])
p("C128","Removing, renaming and truncating files","Removing a file removes exactly this name; other names and open files are not affected, and failure is reported. Renaming succeeds exactly if the file exists and the system permits it; then the new name has the contents of the old one, the old name is gone, and everything else is as before; otherwise an error is reported and nothing changes. Truncating gives the file exactly the requested length, keeping the beginning and adding zeros, and changes no other file. Writing under another name and renaming replaces a file completely or not at all.","all file systems, names, contents, lengths, and all decisions of the operating system","The claims range over all states of the file system, including several names of one file and files that are open, and over all failures of the system.",["src/utils/fileutil.cc: FileUtil::rm, FileUtil::mv, FileUtil::truncate, FileUtil::write"])
with open(os.path.join(os.path.dirname(__file__),"..","properties.jsonl"),"w") as f:
    for x in P: f.write(json.dumps(x)+"\n")
