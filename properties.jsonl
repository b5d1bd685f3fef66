{"id": "C01", "title": "S-expression text round trip", "statement": "If an expression tree is written out in the textual s-expression syntax (lists in parentheses, strings quoted with backslash/quote escaping, literals as bare words) and the text is parsed, the parser succeeds and returns exactly the tree that was written.", "quantifier": "all expression trees of any depth and width, all string contents, all well-formed literals", "why_tests_cant": "Trees and strings are unbounded; a test only checks particular documents.", "anchors": ["src/sexpr_parser.cc: expr_parse, expr_parse_string, expr_parse_literal", "src/sexpr.cc: expr_create_list, expr_create_value"]}
{"id": "C02", "title": "S-expression parser accepts exactly the balanced documents", "statement": "Parsing a text made of lexically valid tokens succeeds if and only if its parentheses are balanced; otherwise an error is returned and no expression is delivered.", "quantifier": "all token sequences", "why_tests_cant": "Unbounded nesting; every one of infinitely many unbalanced documents must be refused.", "anchors": ["src/sexpr_parser.cc: expr_parse"]}
{"id": "C03", "title": "Whitespace and comments between tokens do not matter", "statement": "Inserting blanks, newlines, tabs or ';' line comments between the tokens of a document does not change the parse result.", "quantifier": "all documents, all layouts between tokens", "why_tests_cant": "The space of layouts is infinite.", "anchors": ["src/sexpr_parser.cc: expr_parse"]}
{"id": "C04", "title": "The s-expression parser always terminates", "statement": "For every input the parser returns (success or error) after finitely many steps.", "quantifier": "all input byte strings", "why_tests_cant": "A test that hangs on one input says nothing about the others; termination is a statement about all inputs.", "anchors": ["src/sexpr_parser.cc: expr_parse, expr_parse_literal"]}
{"id": "C05", "title": "Cloning an expression yields an equal, independent copy", "statement": "expr_clone returns a chain equal to the original (structure, kinds and text); with a count n it returns exactly the first n elements.", "quantifier": "all expression chains, all counts", "why_tests_cant": "Recursive structure of unbounded depth.", "anchors": ["src/sexpr.cc: expr_clone"]}
{"id": "C06", "title": "Property list text round trip", "statement": "If a document of properties (name: values;), with words, quoted strings, nested call-like lists and nested blocks, is written out in property list syntax and parsed, the resulting expression is exactly the one denoted by the document.", "quantifier": "all property list documents of any size and nesting, all string contents", "why_tests_cant": "Unbounded documents.", "anchors": ["src/plist_parser.cc: PropertyListParser::parse, parseProperty, parsePropertyValues, parsePropertyValueOrEnum, parsePropertyMap, getToken"]}
{"id": "C07", "title": "Every text has a property list result in bounded time", "statement": "For every input text the property list parser terminates after a number of token reads bounded by the input length, with either success or failure.", "quantifier": "all input byte strings", "why_tests_cant": "Termination for all inputs cannot be tested.", "anchors": ["src/plist_parser.cc: getToken, consumeToken, parsePropertyList, parsePropertyValues"]}
{"id": "C08", "title": "Strict command dispatch", "statement": "Walking a command list in strict mode calls, in document order, the handler registered for each command with exactly that command's arguments; an unknown or malformed command or a failing handler stops the walk with that error, after precisely the preceding commands have been executed.", "quantifier": "all command lists, handler tables and handler behaviours", "why_tests_cant": "Quantifies over all handlers and histories of side effects.", "anchors": ["src/sexpr_util.cc: expr_walk_map"]}
{"id": "C09", "title": "Unknown commands are passed through unchanged", "statement": "When a command list is walked in pass-through mode, the commands handed on to the next stage are exactly those not consumed by the current stage, in their original order.", "quantifier": "all command lists and handler tables", "why_tests_cant": "Depends on every interleaving of known and unknown commands.", "anchors": ["src/sexpr_util.cc: expr_walk_map", "src/eval.cc: eval"]}
{"id": "C10", "title": "CSV round trip", "statement": "Writing a table with RFC 4180 quoting and reading it back with the CSV parser yields the same table.", "quantifier": "all tables (any number of rows/columns, any field content including quotes, commas, CR, LF)", "why_tests_cant": "Unbounded content; the interaction of quoting and delimiters must hold for all strings.", "anchors": ["src/utils/csv.cc: csv_parse, csv_parse_record, csv_parse_field_escaped, csv_parse_field_literal"]}
{"id": "C11", "title": "CSV parser is total and rejects malformed quoting", "statement": "On every input the CSV parser terminates without reading outside the input; an unterminated quoted field or stray characters after a closing quote or a lone carriage return give an error rather than a table.", "quantifier": "all byte strings", "why_tests_cant": "All inputs.", "anchors": ["src/utils/csv.cc"]}
{"id": "C12", "title": "CSV column extraction is bounds safe", "statement": "Extracting a named column from a parsed table returns one value per data row, in row order, or reports an error if a row is too short; it never terminates the program.", "quantifier": "all tables, column names", "why_tests_cant": "A crash needs a specific row width; safety must hold for all.", "anchors": ["src/utils/csv.cc: csv_extract_column", "src/data.cc: data_load_csv"]}
{"id": "C13", "title": "Grouping data partitions the series", "statement": "Grouping a series by key returns groups in order of first appearance; every data index occurs in exactly one group, in increasing order inside the group, and two indexes share a group iff their keys are equal.", "quantifier": "all series lengths and key values", "why_tests_cant": "All sequences of keys.", "anchors": ["src/data.cc: series_group"]}
{"id": "C14", "title": "UTF-8 encode/decode round trip", "statement": "Encoding any Unicode code point and decoding the bytes yields the code point and consumes exactly the encoded bytes; the encoding agrees with the UTF-8 standard for every code point up to 0x1FFFFF.", "quantifier": "all code points, all following bytes", "why_tests_cant": "1.1 million code points times arbitrary context; boundary errors hide between samples.", "anchors": ["src/utils/UTF8.cc: encodeCodepoint, nextCodepoint"]}
{"id": "C15", "title": "UTF-8/UTF-32 string conversion round trip", "statement": "Converting a UTF-32 string to UTF-8 and back is the identity, and the code point count equals the length, for strings without NUL.", "quantifier": "all strings of code points", "why_tests_cant": "Unbounded strings.", "anchors": ["src/utils/UTF8.cc: convertUTF8To32, convertUTF32To8, countUTF8CodePoints"]}
{"id": "C16", "title": "UTF-8 validation accepts exactly well-formed text", "statement": "The validity check returns true iff the byte string is well-formed UTF-8, and always terminates.", "quantifier": "all byte strings", "why_tests_cant": "All byte strings.", "anchors": ["src/utils/UTF8.cc: isValidUTF8"]}
{"id": "C17", "title": "Civil date to Unix time is the Gregorian calendar", "statement": "Converting a civil date/time (year >= 1970, UTC offset) to a timestamp gives the number of microseconds since the epoch according to the proleptic Gregorian calendar; consecutive days differ by exactly 86400 s and the conversion is strictly monotone.", "quantifier": "all valid civil times", "why_tests_cant": "Calendars have 400-year periodic exceptions; enumeration is impossible.", "anchors": ["src/utils/UnixTime.cc: UnixTime(CivilTime)", "src/utils/ISO8601.cc: isLeapYear, daysInMonth, daysInYear"]}
{"id": "C18", "title": "ISO 8601 parsing accepts every valid date", "statement": "A well-formed YYYY-MM-DDTHH:MM:SSZ text with in-range fields is parsed to exactly those fields, and out-of-range days are rejected.", "quantifier": "all field combinations", "why_tests_cant": "All combinations of fields.", "anchors": ["src/utils/ISO8601.cc: ISO8601::parse, parseDay"]}
{"id": "C19", "title": "Time arithmetic laws", "statement": "Adding a duration to a time point and subtracting it returns the original; the difference of two time points is symmetric; the accessors return the number of whole units and undo the constructors.", "quantifier": "all time points and durations (64 bit, wrap-around included)", "why_tests_cant": "2^64 x 2^64 combinations.", "anchors": ["src/utils/UnixTime.h", "src/utils/UnixTime.cc", "src/utils/duration.h"]}
{"id": "C20", "title": "Linear scale maps the domain onto the unit interval", "statement": "On a linear scale the minimum is drawn at 0, the maximum at 1 (swapped when inverted), positions are strictly monotone in the value, and untranslating a translated value returns it.", "quantifier": "all domains with min<max, all values, both orientations", "why_tests_cant": "All real values.", "anchors": ["src/scale.cc: scale_translate, scale_translate_linear, scale_untranslate_linear"]}
{"id": "C21", "title": "Logarithmic scale and its inverse", "statement": "On a logarithmic scale, untranslating a translated value returns the value.", "quantifier": "all domains and values", "why_tests_cant": "Real analysis, not samples.", "anchors": ["src/scale.cc: scale_translate_log, scale_untranslate_log"]}
{"id": "C22", "title": "Categorical scale spreads categories evenly", "statement": "With n categories the i-th category is drawn inside [0,1], categories are strictly ordered and equally spaced, symmetric around the middle, and the cell bounds interleave the categories.", "quantifier": "all n, i and paddings", "why_tests_cant": "All n.", "anchors": ["src/scale.cc: scale_translate_categorical, scale_layout_categorical, scale_layout_categorical_bounds"]}
{"id": "C23", "title": "Scale fitting covers exactly the data", "statement": "After fitting a series to an automatic scale, min and max of the domain are the smallest and largest value seen; the result does not depend on the order of the data, and explicit limits are never overridden.", "quantifier": "all data series, all orders, any number of series fitted to the same scale", "why_tests_cant": "Order independence over all permutations.", "anchors": ["src/scale.cc: scale_fit, scale_min, scale_max"]}
{"id": "C24", "title": "Tick layouts place every tick inside the plot", "statement": "Every tick produced by the linear, interval, aligned, exponential and subdivision layouts lies in the unit interval, ticks are in increasing order and evenly spaced as configured, and there is one label per tick.", "quantifier": "all scales, steps, begin/end values, divisions", "why_tests_cant": "All numeric parameters.", "anchors": ["src/scale.cc: scale_layout_linear, scale_layout_linear_interval, scale_layout_linear_align, scale_layout_linear_alignat, scale_layout_subdivide"]}
{"id": "C25", "title": "Tick layout always terminates with bounded output", "statement": "Computing ticks finishes for every step value and yields at most a fixed maximum number of ticks.", "quantifier": "all step values including zero and negative", "why_tests_cant": "Non-termination cannot be tested.", "anchors": ["src/scale.cc: scale_layout_linear_interval, scale_layout_linear_alignat, kMaxTicks"]}
{"id": "C26", "title": "Typographic unit conversion", "statement": "Converting between mm, pt and device units is invertible, and a dimension normalised for a device is idempotent under normalisation.", "quantifier": "all measures, DPIs, font sizes", "why_tests_cant": "All values.", "anchors": ["src/graphics/measure.cc", "src/units.cc", "src/layer.cc"]}
{"id": "C27", "title": "Hex colour round trip", "statement": "Parsing '#rrggbb' / '#rrggbbaa' / '#rgb' gives channel value/255 for each channel; printing a parsed colour returns the same text in canonical form; non-hexadecimal text is refused with an error.", "quantifier": "all 2^24 / 2^32 colours and all malformed strings", "why_tests_cant": "Too many values; malformed strings are unbounded.", "anchors": ["src/graphics/color.cc: Color::parse, to_hex_str", "src/color_reader.cc"]}
{"id": "C28", "title": "Colour maps interpolate between the configured stops", "statement": "A step map gives the colour of the interval containing the value; a gradient map gives the linear interpolation of the two neighbouring stops, exact at the stops, for every value in [0,1].", "quantifier": "all stop tables, all values", "why_tests_cant": "All values/tables.", "anchors": ["src/color_map.cc: color_map_steps, color_map_gradient"]}
{"id": "C29", "title": "Transform matrices compose", "statement": "Matrix product is associative and applying a product equals applying the factors in turn; translation, scale and rotation act as documented and have the expected inverses.", "quantifier": "all matrices and points", "why_tests_cant": "Algebraic laws over a field.", "anchors": ["src/vmath.cc", "src/vmath.h"]}
{"id": "C30", "title": "Transforming a path preserves its structure", "statement": "Transforming a path keeps the sequence of commands and maps every coordinate; transforming by two matrices successively equals transforming by the product; converting a polygon to a path and back is the identity.", "quantifier": "all paths, matrices, polygons", "why_tests_cant": "Unbounded paths.", "anchors": ["src/graphics/path.cc: path_transform, path_to_polygon_simple, path_from_polygon"]}
{"id": "C31", "title": "Margins and alignment stay inside the parent box", "statement": "The content box left after applying margins lies inside the parent box and has non-negative size; an aligned child has the requested edge coincide with the parent's edge.", "quantifier": "all boxes, margins, alignments", "why_tests_cant": "All real values.", "anchors": ["src/graphics/layout.cc: layout_margin_box, layout_align"]}
{"id": "C32", "title": "Bidirectional reordering is a permutation", "statement": "The visual order computed for a text line is a permutation of the logical runs; a purely left-to-right line keeps its order and a purely right-to-left line is reversed.", "quantifier": "all sequences of embedding levels", "why_tests_cant": "All level sequences.", "anchors": ["src/graphics/text_support.cc: text_reorder_bidi_line"]}
{"id": "C33", "title": "Text cannot inject SVG markup", "statement": "Text written into an SVG element body or attribute is escaped so that an XML reader recovers exactly the text and no markup can be injected.", "quantifier": "all strings", "why_tests_cant": "All strings.", "anchors": ["src/graphics/export_svg.cc: svg_body, svg_attr"]}
{"id": "C34", "title": "Exported SVG contains one element per drawing command, in order", "statement": "Exporting a page emits the elements in drawing order with the vertical axis flipped; the flip is an involution and keeps every coordinate of the page inside the page.", "quantifier": "all draw lists", "why_tests_cant": "Unbounded lists.", "anchors": ["src/graphics/export_svg.cc: export_svg, svg_add_path, svg_path_data"]}
{"id": "C35", "title": "Byte buffer behaves like a byte sequence", "statement": "After any sequence of append, truncate, clear, reserve and read operations the buffer's content equals the abstract byte sequence and never exceeds the allocated size.", "quantifier": "all operation histories", "why_tests_cant": "All histories.", "anchors": ["src/utils/buffer.cc"]}
{"id": "C36", "title": "Image pixel store round trip", "statement": "A pixel written to an RGBA image is read back with its quantised value and no other pixel changes; converting RGB to RGBA and back is the identity.", "quantifier": "all images, coordinates, colours", "why_tests_cant": "All values.", "anchors": ["src/graphics/image.cc"]}
{"id": "C37", "title": "String utilities", "statement": "Splitting a joined list of delimiter-free parts returns the parts; replacing all occurrences leaves none of a pattern that the replacement cannot recreate; prefix/suffix tests and ordering agree with their mathematical definition.", "quantifier": "all strings", "why_tests_cant": "All strings.", "anchors": ["src/utils/stringutil.cc"]}
{"id": "C38", "title": "JSON string tokens are decoded", "statement": "Reading a JSON string literal returns the text it denotes and an unterminated literal is an error.", "quantifier": "all JSON strings", "why_tests_cant": "All strings; termination.", "anchors": ["src/utils/json.cc: json_parse_string"]}
{"id": "C39", "title": "GeoJSON points are read safely", "statement": "A GeoJSON geometry with two-dimensional coordinates is delivered with exactly its coordinates; coordinate arrays of the wrong shape are an error, never an out-of-bounds access.", "quantifier": "all coordinate arrays", "why_tests_cant": "All arrays.", "anchors": ["src/utils/geojson.cc"]}
{"id": "C40", "title": "First error wins", "statement": "In a chain of fallible steps the first failing step's error is returned and no later step is executed.", "quantifier": "all step sequences", "why_tests_cant": "All histories of effects.", "anchors": ["src/return_code.h: try_chain"]}
{"id": "C41", "title": "Line/line intersection is correct", "statement": "When two lines are reported to intersect, the reported point lies on both; parallel lines are reported as not intersecting.", "quantifier": "all pairs of lines", "why_tests_cant": "All real coordinates.", "anchors": ["src/graphics/intersect.cc"]}
{"id": "C42", "title": "Every data point of a line plot is drawn once, in its series", "statement": "A line plot emits, per series, one path whose vertices are the scaled data points of that series in order; every data point appears in exactly one path and lies in the plot area if its value is inside the scale domain.", "quantifier": "all data sets and groupings", "why_tests_cant": "All data sets.", "anchors": ["src/plot/lines.cc: lines_draw"]}
{"id": "C43", "title": "Format cycling", "statement": "A custom label list labels the i-th tick with the (i mod n)-th label.", "quantifier": "all label lists, all tick indexes", "why_tests_cant": "Unbounded indexes.", "anchors": ["src/format.cc: format_custom"]}
{"id": "C44", "title": "Evaluation of a document selects the module and is deterministic", "statement": "Evaluating a document applies its size/dpi/font settings in order, then runs the selected module (default plot) on the remaining commands; an unknown module is an error and draws nothing.", "quantifier": "all documents", "why_tests_cant": "All documents.", "anchors": ["src/eval.cc: eval"]}
{"id": "C45", "title": "Command line flags", "statement": "Parsing a command line sets every flag named in it, in any of the usual spellings, to the value given; unknown options and missing values are errors; everything else is kept in order as positional arguments.", "quantifier": "all argument vectors", "why_tests_cant": "Unbounded argument vectors.", "anchors": ["src/utils/flagparser.cc"]}
{"id": "C46", "title": "Property lists with unbalanced parentheses are refused", "statement": "A property list text is accepted only if its parentheses are balanced; every text that is not a well-formed document is refused.", "quantifier": "all input texts", "why_tests_cant": "All malformed texts must be refused.", "anchors": ["src/plist_parser.cc: parsePropertyValueOrEnum, expectAndConsumeToken"]}
{"id": "C47", "title": "Property lists ending inside a string are refused", "statement": "A property list text that ends inside a quoted string is refused.", "quantifier": "all texts, all string contents, both quote characters", "why_tests_cant": "All truncation points.", "anchors": ["src/plist_parser.cc: getToken, parse"]}
{"id": "C48", "title": "Misspelled commands are reported", "statement": "A command that neither the document level nor the selected module knows is reported as an error; it is never silently ignored.", "quantifier": "all documents containing an unknown command, at every position, for the plot and the draw module", "why_tests_cant": "All positions in all documents and all unknown names.", "anchors": ["src/plot/plotgen.cc: plot_prepare, plot_draw, plot_eval", "src/draw.cc: draw_eval", "src/sexpr_util.cc: expr_walk_map"]}
{"id": "C49", "title": "Limits are settled before anything is drawn", "statement": "A plot is evaluated in two phases: all limit and auto-ranging commands of the whole document are executed before the first drawing command, whatever their order in the document; an error in the first phase means nothing is drawn.", "quantifier": "all documents, all handler behaviours", "why_tests_cant": "Concerns all interleavings of commands.", "anchors": ["src/plot/plotgen.cc: plot_prepare, plot_draw, plot_eval"]}
{"id": "C50", "title": "Data buffers deliver what was added", "statement": "A data buffer filled with any mixture of numbers and texts delivers exactly the added values, in the order they were added, both as texts and as numbers.", "quantifier": "all sequences of additions", "why_tests_cant": "Unbounded histories of additions.", "anchors": ["src/data.cc: databuf_add, databuf_len, databuf_to_text, databuf_to_numbers"]}
{"id": "C51", "title": "Inline data is loaded completely or refused", "statement": "Inline data written as a list in the document is loaded as exactly its values in order; a list in an unknown form is refused.", "quantifier": "all inline data lists", "why_tests_cant": "Unbounded lists.", "anchors": ["src/data.cc: data_load_simple, data_load_simple_inline, data_load_polylines2"]}
{"id": "C52", "title": "CSV columns become line data", "statement": "A line plot that refers to a CSV file gets the named columns (by default x and y), one entry per data row in row order; the file format is determined by the file extension unless given.", "quantifier": "all CSV tables, column names and column positions", "why_tests_cant": "All tables.", "anchors": ["src/data.cc: data_load_polylines2, data_load_polylines2_csv", "src/utils/csv.cc: csv_extract_column"]}
{"id": "C53", "title": "CSV files work for points as they do for lines", "statement": "A point plot accepts the same data sources (inline lists, CSV, GeoJSON) as a line plot.", "quantifier": "all data sources", "why_tests_cant": "All files and columns.", "anchors": ["src/data.cc: data_load_points2"]}
{"id": "C54", "title": "GeoJSON polylines stay separate", "statement": "Loading a GeoJSON file with several polylines keeps every polyline separate: the recorded split positions cut the loaded coordinates into exactly the polylines of the file.", "quantifier": "all sequences of polylines of any length, including empty ones", "why_tests_cant": "Unbounded numbers and sizes of polylines.", "anchors": ["src/data.cc: data_load_polylines2_geojson"]}
{"id": "C55", "title": "UTF-16 conversion", "statement": "Converting UTF-8 text to UTF-16 keeps every character.", "quantifier": "all texts", "why_tests_cant": "All of Unicode.", "anchors": ["src/utils/stringutil.cc: StringUtil::convertUTF8To16, StringUtil::convertUTF16To8"]}
{"id": "C56", "title": "Printed durations add up", "statement": "The text printed for a duration lists its non-zero years, days, hours, minutes, seconds and milliseconds, separated by blanks; these components are in range and add up to the duration in whole milliseconds.", "quantifier": "all durations", "why_tests_cant": "2^64 durations.", "anchors": ["src/utils/duration.cc: inspect"]}
{"id": "C57", "title": "JSON tokens and skipping", "statement": "Whatever the white space and separators, a JSON text is read as its sequence of tokens; skipping a value (of a member nobody asked for) consumes exactly that value with everything nested in it, and comes to an end.", "quantifier": "all JSON values of any nesting, all layouts", "why_tests_cant": "Unbounded nesting and layouts.", "anchors": ["src/utils/json.cc: json_parse, json_parse_number, json_skip, json_skip_array, json_skip_object"]}
{"id": "C58", "title": "GeoJSON files are loaded completely", "statement": "Loading a well-formed GeoJSON file of lines (or multipoints) gives exactly the coordinates of its geometries in document order, with the lines kept apart, whatever foreign members, member order and layout the file has.", "quantifier": "all documents of any nesting, all layouts", "why_tests_cant": "Unbounded documents.", "anchors": ["src/data.cc: data_load_polylines2_geojson, data_load_points2_geojson", "src/utils/geojson.cc: geojson_read_file"]}
{"id": "C59", "title": "Trimming and path joining", "statement": "Trimming removes exactly the blanks (line ends, slashes) at the respective end of any text; two paths are joined by exactly one slash.", "quantifier": "all texts, including empty and blank ones", "why_tests_cant": "All texts.", "anchors": ["src/utils/stringutil.cc: ltrim, rtrim, chomp, stripTrailingSlashes", "src/utils/fileutil.cc: joinPaths", "src/utils/bufferutil.cc: stripTrailingBytes"]}
{"id": "C60", "title": "Numeric data is recognised exactly", "statement": "A text is accepted as a numeric data value exactly if it is a decimal number; printing a number drops only redundant zeros behind the point.", "quantifier": "all texts", "why_tests_cant": "All texts.", "anchors": ["src/utils/stringutil.cc: isNumber, toString(double)", "src/scale.cc: scale_translatev_numeric"]}
{"id": "C61", "title": "Hex dumps and shell-safe names", "statement": "A hex dump of a buffer, with or without separators and in both directions, determines the bytes; stripping unsafe characters yields a shell-safe text and leaves safe texts unchanged.", "quantifier": "all byte sequences, all texts", "why_tests_cant": "All byte sequences.", "anchors": ["src/utils/bufferutil.cc: hexPrint", "src/utils/stringutil.cc: stripShell, isShellSafe"]}
{"id": "C62", "title": "Hatching a shape ends and stays at the shape", "statement": "Filling a shape with a hatch pattern ends for every shape, angle, offset, width and stride; every vertex drawn is a finite point on an edge of the shape.", "quantifier": "all polygons, angles, offsets, strides, widths", "why_tests_cant": "A loop without an explicit bound; the shapes that make it run forever are degenerate polygons a test suite is unlikely to contain.", "anchors": ["src/graphics/shape_hatch.cc: shape_hatch", "src/graphics/intersect.cc: intersect_poly_line"]}
{"id": "C63", "title": "All plot elements agree on where a data value is", "statement": "Every element of a plot (points, bars, areas, errorbars, rectangles, vectors, polygons, labels, grid lines) draws a data value (x, y) at the same place of the plot area: at the fraction of the width and height that the scales assign to x and y.", "quantifier": "all data sets, plot areas and translated coordinates", "why_tests_cant": "All data sets; element code is duplicated per element so agreement cannot be sampled.", "anchors": ["src/plot/points.cc: points_draw", "src/plot/bars.cc: bars_draw_vertical, bars_draw_horizontal", "src/plot/areas.cc", "src/plot/errorbars.cc: errorbars_draw", "src/plot/rectangles.cc", "src/plot/vectors.cc", "src/plot/polygons.cc", "src/plot/grid.cc: plot_grid", "src/plot/labels.cc: labels_draw", "src/arrows.cc"]}
{"id": "C64", "title": "Data that does not fit the scale is refused", "statement": "On a linear or logarithmic scale a series is accepted exactly if every text value in it is a number, on a categorical scale exactly if every value is one of the categories; accepted series yield one position per value, in order; otherwise the first offending value is reported.", "quantifier": "all scales and all series of numbers and texts", "why_tests_cant": "All series and values.", "anchors": ["src/scale.cc: scale_translatev, scale_map_categories"]}
{"id": "C65", "title": "Per-point style lists repeat", "statement": "If a list of n colours, sizes or shapes is given for a plot element, point i gets entry i mod n; without a list it gets the default.", "quantifier": "all lists and indexes", "why_tests_cant": "Unbounded indexes.", "anchors": ["src/plot/points.cc: points_draw", "src/plot/vectors.cc", "src/plot/rectangles.cc", "src/plot/bars.cc"]}
{"id": "C66", "title": "Marker shapes", "statement": "Every documented marker name selects its own shape, unknown names are refused, a list of shapes is accepted if each of its entries is, and circle markers have the requested diameter and a border inside it.", "quantifier": "all marker expressions, positions and sizes", "why_tests_cant": "All expressions.", "anchors": ["src/marker.cc: marker_configure, marker_configure_list, marker_create_circle"]}
{"id": "C67", "title": "Named paper sizes", "statement": "A figure size given as the name of an ISO A paper format, upright or starred for landscape, gives a layer of exactly that width and height in millimetres; a starred name is the same sheet turned; each format is its predecessor cut in half; any other single word is refused.", "quantifier": "every size name", "why_tests_cant": "unit tests try one or two names; the claim is about every name, known or unknown", "anchors": ["src/layer.cc: layer_resize"]}
{"id": "C68", "title": "Dimensions with units", "statement": "A dimension text consisting of a number and a unit name is read as that number in that unit, in the size contexts (mm, pt, in, em, percent, bare zero and so on); text with an unknown unit is refused; and the map from percentages to distances is linear.", "quantifier": "every number text and every unit text", "why_tests_cant": "the number and the suffix range over all strings", "anchors": ["src/sexpr_conv.cc: expr_to_measure, expr_to_number", "src/layer.cc: layer_get_uconv_width", "src/typographic_map.cc"]}
{"id": "C69", "title": "Number labels", "statement": "A tick label in the fixed format is the tick's value correctly rounded to the configured number of decimals; in the integer format its integer part; in the scientific format a decimal number and a power of ten whose product is the value up to half a unit in the last place; in the base format the power of the base equal to the value.", "quantifier": "every tick value, precision and base", "why_tests_cant": "the claim is about every real value and precision", "anchors": ["src/format.cc: format_decimal_fixed, format_decimal_scientific, format_base_fixed, format_integer, format_superscript", "src/data.cc: value_to_float, value_from_float"]}
{"id": "C70", "title": "Which label formats are accepted", "statement": "The label-format setting accepts exactly fixed, scientific, datetime, integer (as a word or a list), base and custom as lists, with their documented numbers of arguments; all else is refused.", "quantifier": "every argument expression", "why_tests_cant": "every word and list", "anchors": ["src/format.cc: format_configure"]}
{"id": "C71", "title": "Palette colours and colour maps in documents", "statement": "A colour may be given as the number of a palette colour (1 is the first, numbers beyond the end start over), as (rgb r g b) or (rgba r g b a); a colour map is a list of pairs of a position and a colour; everything else is refused. The built-in palettes contain exactly their published colours.", "quantifier": "all colour expressions and palettes", "why_tests_cant": "all numbers, all lists", "anchors": ["src/color_reader.cc: expr_to_color, color_read_string, color_map_read", "src/color_palette.cc"]}
{"id": "C72", "title": "Placement of glyphs in a text line", "statement": "Within a laid-out line of text every glyph starts exactly where the glyphs before it end, on the base line; the bounding box is as wide as the sum of the glyph advances and reaches from the lowest descender to the highest ascender (base line included); a right-to-left line is the left-to-right line of the reversed spans moved to end at the origin; and a span that cannot be shaped makes the layout fail with its error.", "quantifier": "every sequence of spans, every glyph sequence the shaper may return for them, both directions", "why_tests_cant": "depends on arbitrary shaper output and arbitrary span sequences; only an induction over both covers them", "anchors": ["src/graphics/text_layout.cc: text_layout_line, text_layout_span"]}
{"id": "C73", "title": "Shapes are drawn with their styles", "statement": "Drawing a shape appends exactly one command to the page; the command paints the fill if the shape has a fill colour (hatched if requested), then the stroke (dashed if requested) if its line width is not zero, and nothing else; earlier commands are unchanged.", "quantifier": "every shape, fill style, stroke style and prior drawing", "why_tests_cant": "ranges over all styles and all prior drawings", "anchors": ["src/graphics/draw_cmd.cc: draw_shape"]}
{"id": "C74", "title": "The command line program produces output only on success", "statement": "The clip program writes the exported SVG text, and only that, to the requested path (or the standard output) when the input was read, evaluated and exported without an error; in every other case it fails without writing anything. The last export path and format given count; the format follows from the file name if not given.", "quantifier": "all command lines, inputs and environments", "why_tests_cant": "Unbounded command lines and all combinations of failures.", "anchors": ["src/cli.cc", "src/utils/flagparser.cc"]}
{"id": "C75", "title": "Exporting to a file at any crash point", "statement": "Stopping the program at any moment while it exports leaves every other file unchanged and the exported file with its old contents or a prefix of the new ones; a reported success means the complete new contents. Ideally the old contents are never lost before the new ones are complete.", "quantifier": "all previous contents, exported texts, crash points and short writes", "why_tests_cant": "A test cannot stop the program at every point.", "anchors": ["src/utils/fileutil.cc", "src/utils/file.cc"]}
{"id": "C76", "title": "Printed expressions read back", "statement": "Printing an expression and parsing the printed text gives back the expression; where quotes matter, quoted strings must come back as the same strings.", "quantifier": "all expressions", "why_tests_cant": "Every nesting and every text must survive the round trip; tests cover a few.", "anchors": ["src/sexpr.cc:expr_inspect"]}
{"id": "C77", "title": "Parameter lists are walked completely", "statement": "Walking a list of (name arguments...) parameters applies every known parameter in order up to the first failure; unknown ones are refused by name in strict mode and passed over otherwise; malformed entries are refused.", "quantifier": "all parameter lists, handlers and states", "why_tests_cant": "Depends on the position of every entry and on arbitrary handlers.", "anchors": ["src/sexpr_util.cc:expr_walk_tmap"]}
{"id": "C78", "title": "Styles in drawings", "statement": "In the draw module a fill setting is accepted exactly if it is a colour, solid(colour), hatch or hatch(settings), a stroke setting exactly if it is a width and a colour, solid, dash or one of these with settings; each accepted setting adds exactly its meaning (with the documented defaults for what it leaves out, the last of repeated settings counting) to the style, a refused one leaves the style unchanged.", "quantifier": "all argument lists, prior styles, palettes and number readers", "why_tests_cant": "All nestings of settings, in every order and number.", "anchors": ["src/style_reader.cc", "src/style.cc", "src/color_reader.cc"]}
{"id": "C79", "title": "Styles of plot elements", "statement": "A fill setting of a plot element is none, hatch with settings, or a colour; a stroke-style setting is none, solid or dash with settings; the fill or stroke afterwards is exactly what the setting says, a later setting replacing an earlier one, and a length of n mm is n millimetres.", "quantifier": "all argument lists and prior styles", "why_tests_cant": "All sequences of settings.", "anchors": ["src/style_reader.cc: fill_style_read, stroke_style_read", "src/typographic_reader.cc"]}
{"id": "C80", "title": "Switches, words, ranges and vectors", "statement": "A switch is on for `on`, off for `off`, and refuses everything else; a setting with a fixed set of words accepts exactly those words; a range is two numbers; a vector is two lengths in known units.", "quantifier": "all argument lists", "why_tests_cant": "All argument lists.", "anchors": ["src/sexpr_conv.cc: expr_to_switch, expr_to_enum, expr_to_float64_opt_pair, expr_to_vec2"]}
{"id": "C81", "title": "Rectangles and the order of drawing", "statement": "A rectangle command succeeds exactly if each of its settings means something; then exactly one shape is added to the page: the rectangle with the given centre and size (default: the page) in the given style (default: that of the document). The commands of a drawing add their shapes in the order in which they are given, above what was there before; nothing else changes.", "quantifier": "all command lists, pages and settings", "why_tests_cant": "All sequences of commands and settings.", "anchors": ["src/draw.cc: draw_eval", "src/draw/rectangle.cc", "src/draw/path.cc"]}
{"id": "C82", "title": "Text is set and placed correctly", "statement": "Drawing a line of text succeeds exactly if it can be shaped; it then adds one shape per glyph: the outlines in visual order (rule L2), each glyph where the previous one ends, the line as a whole aligned to the given point; a text command means what its settings say, the fonts of the command taking precedence over those of the document.", "quantifier": "all texts, fonts, shapers, embedding levels, positions and alignments", "why_tests_cant": "All texts and all results of the shaping libraries.", "anchors": ["src/draw/text.cc: text, text_eval", "src/graphics/text_layout.cc", "src/graphics/text_support.cc"]}
{"id": "C83", "title": "Rotated text", "statement": "Text drawn with a rotation angle is the text drawn without it, turned clockwise by that many degrees about its anchor point.", "quantifier": "all texts, angles, points", "why_tests_cant": "All angles and texts.", "anchors": ["src/graphics/draw_cmd.cc: draw_text"]}
{"id": "C84", "title": "Font fallback", "statement": "A run of text is shaped with the first font that has a glyph for all of it; if there is none, with the last font.", "quantifier": "all font lists and shapers", "why_tests_cant": "All font lists.", "anchors": ["src/graphics/text_shaper.cc: text_shape_run_with_font_fallback"]}
{"id": "C85", "title": "Runs of a line", "statement": "A line of text is cut into maximal runs of one embedding level; together the runs are the line, and a run is right-to-left exactly if its level is odd.", "quantifier": "all texts and embedding levels", "why_tests_cant": "All texts.", "anchors": ["src/graphics/text_backend_freetype.cc: text_analyze_bidi_line"]}
{"id": "C86", "title": "Document settings describe the page", "statement": "The settings of a document (class, size, dpi, font, font-size) are accepted exactly if each of them has valid arguments; the page then has the size, resolution, font size and fonts given by the last setting of each name (all fonts, the last given first), the module selected is the last class, and everything that is not set keeps its default.", "quantifier": "all lists of settings, all values of them, all pages before", "why_tests_cant": "Which settings a document repeats or leaves out, in which order, and with which values is unbounded; a test fixes one document.", "anchors": ["src/eval.cc: eval", "src/layer.cc: layer_resize_cmd, layer_set_dpi_cmd, layer_set_font_cmd, layer_set_font_size_cmd", "src/typographic_reader.cc: measure_read"]}
{"id": "C87", "title": "From document text to SVG", "statement": "For the text of every document that gives its settings first, selects the draw module and then draws: it is accepted exactly if all its settings and drawing commands mean something, the picture then consists of exactly the shapes the commands describe, in their order, on a page as the settings describe, and the SVG file is well-formed XML that shows exactly these shapes.", "quantifier": "all document texts of this form, all fonts and shapers, all numbers", "why_tests_cant": "The property composes parser, evaluator, drawing and export over all documents; end-to-end tests compare a few files.", "anchors": ["src/eval.cc: eval", "src/plist_parser.cc", "src/draw.cc", "src/graphics/export_svg.cc"]}
{"id": "C88", "title": "A plot only adds to the page", "statement": "Whatever commands a plot contains, and even if it is refused half way, evaluating it only adds shapes to the page: what was drawn before stays where it is, and size, fonts, background, palette and default style of the page are unchanged. If any data element of the plot has an unknown option or an option with wrong arguments, nothing of the plot is drawn.", "quantifier": "all plots (lists of commands), pages, fonts and files", "why_tests_cant": "All command lists, all failures at any point.", "anchors": ["src/plot/plotgen.cc: plot_eval, plot_prepare, plot_draw", "src/plot/plotgen.cc: plot_eval; src/plot/lines.cc, points.cc, bars.cc, areas.cc: every plot element"]}
{"id": "C90", "title": "Options of plot elements", "statement": "Every data element, the grid, the background, the axes, the legend and its items accept exactly the options in their lists with arguments of the right form, and refuse every other block of options without drawing anything; after the options every setting has the value of the last option that concerns it (or, for data, labels and fonts, of all of them in order), and is otherwise the default.", "quantifier": "all lists of options, all prior plots and pages", "why_tests_cant": "All option lists, any order and repetition.", "anchors": ["src/plot/lines.cc: lines_configure", "src/plot/points.cc: points_configure", "src/plot/bars.cc", "src/plot/areas.cc", "src/plot/errorbars.cc", "src/plot/rectangles.cc", "src/plot/vectors.cc", "src/plot/labels.cc", "src/plot/polygons.cc", "src/plot/grid.cc", "src/plot/plotgen.cc: plot_set_background", "src/plot/axis.cc: plot_axes", "src/plot/axis.cc: plot_axis", "src/figure/legend.cc", "src/sexpr_util.cc"]}
{"id": "C89", "title": "Automatic limits of a plot fit the data of all its elements", "statement": "A plot without scale settings takes as limits of its x and y axis the smallest and the largest number among the data of all its elements together, in whatever order they stand; these limits stay the same while the elements are drawn, so every data position of every element is between 0 and 1 and the lines and areas are drawn inside the plot area.", "quantifier": "all lists of plot commands, all data, all pages, every element at the moment it is drawn", "why_tests_cant": "Each element takes part in the limits in a first pass and is drawn in a second one; a test sees a few combinations of elements, the property is about all of them.", "anchors": ["src/plot/plotgen.cc: plot_prepare, plot_draw, plot_eval", "src/scale.cc: scale_fit, scale_translatev", "src/plot/lines.cc: lines_autorange, lines_draw", "src/plot/areas.cc: areas_autorange"]}
{"id": "C91", "title": "An axis stands at the edge of the plot area and its labels name the values at which they stand", "statement": "An axis that is drawn without error consists of a line along its side of the plot area, a tick mark at every tick position, every label at its position with the configured distance, side, attachment and rotation, and the title centred along the axis and clear of the labels; nothing else is added to the page. Data with the value that a label names go to the place of the label. The command axes takes from the plot area the margins and exactly the room that the shown axes need for labels and titles, draws the shown axes around the remaining area, and this area is the plot area of the commands after it.", "quantifier": "all axis definitions, scales, placements of ticks and labels, fonts, plot areas and pages", "why_tests_cant": "The geometry depends on real-valued text sizes and angles, and the number of ticks is unbounded; an image comparison sees a few pictures.", "anchors": ["src/plot/axis.cc: axis_layout, plot_axis_vertical, plot_axis_horizontal, plot_axis, plot_axes", "src/scale.cc: scale_layout_*", "src/graphics/layout.cc: layout_margin_box, box_rotate_bounds"]}
{"id": "C92", "title": "Scale types and tick placements read as documented", "statement": "A scale type setting is accepted exactly if it is a sequence of the documented words (linear, log or logarithmic with an optional base, categorical with its categories, inverted) and the words act on the scale in order; a placement of ticks or labels is accepted exactly in the documented forms with the documented numbers of arguments, and denotes the placement with these numbers. A later setting replaces the effect of an earlier one, so linear after categorical is linear, and a second list of categories replaces the first.", "quantifier": "all argument lists of scale and placement settings, all scales and number parsers, all earlier settings", "why_tests_cant": "The argument lists are arbitrary expression trees and the result depends on the history of earlier settings; tests show single settings.", "anchors": ["src/scale.cc: scale_configure_kind, scale_configure_layout, scale_map_categories", "doc/plot/scale-types.md", "doc/plot/scale-layout.md"]}
{"id": "C93", "title": "Unset options have their defaults", "statement": "An option of a plot element, axis or legend that a file does not set has its default: lines are 1.5pt, points 4pt, strokes 1pt and black, bars and areas filled black without outline, polygons outlined and not filled, grid lines light grey, axes show the scales of the plot with labels and titles outside, ticks inside and the title of a vertical axis turned, legends stand at the top left, and texts have the fonts and font size of the document; all other options change just what they name.", "quantifier": "all elements, all documents (page, dpi, font size, fonts, scales) and all lists of options", "why_tests_cant": "The defaults depend on real-valued dpi and font sizes and must survive every combination of the other options.", "anchors": ["src/plot/lines.cc: lines_configure", "src/plot/points.cc: points_configure", "src/plot/bars.cc: bars_configure", "src/plot/axis.cc: plot_axis, plot_axes", "src/figure/legend.cc: plot_legend", "src/figure/legend_item.cc: legend_item_configure"]}
{"id": "C94", "title": "Pictures of the elements of a plot", "statement": "Each element of a plot (lines, points, bars, areas, error bars, rectangles, vectors, labels, polygons, grid, background) draws exactly one picture, given in closed form by its settings and by where its values stand on the scales of the plot: which shapes, in which order, with which outline, fill, border, colour, and with which texts at which points; it fails exactly if a value has no place on its scale or a shape has no direction, and it changes nothing else.  The places of values (linear, logarithmic, categorical, inverted scales), of the base line and of lengths are specified separately.  Violations stated as such: labels and horizontal grid lines are upside down, horizontal error bars are slanted if the margins differ, holes of polygons are not moved, surplus labels and missing directions are undefined.", "quantifier": "all plots, scales, options, data and fonts", "why_tests_cant": "every value can stand anywhere, in any number, with any option; a test sees one picture", "anchors": ["src/plot/lines.cc: lines_draw", "src/plot/points.cc: points_draw", "src/plot/bars.cc: bars_draw", "src/plot/areas.cc: areas_draw", "src/plot/errorbars.cc: errorbars_draw", "src/plot/rectangles.cc: rectangles_draw", "src/plot/vectors.cc: vectors_draw", "src/plot/labels.cc: labels_draw", "src/plot/polygons.cc: polygons_draw", "src/plot/grid.cc: plot_grid", "src/plot/plotgen.cc: plot_set_background", "src/scale.cc: scale_translate"]}
{"id": "C95", "title": "A legend shows its items, in a column or in rows, inside its frame", "statement": "A legend draws its background and borders, and for each item, in the order given, the label and the marker. The items are one below the other at the given distance or, in flow, in rows that are filled from the left and broken only where the next item has no room; the frame has the size of the items and the padding, and stands where the position says, inside the plot area less the margins. Items do not overlap, and are inside the frame if it fits.", "quantifier": "all plots, legend settings, items, label sizes, fonts", "why_tests_cant": "Tests look at a few reference images; they do not cover all numbers and sizes of items, nor legends that are too small", "anchors": ["src/figure/legend.cc: legend_layout_item_rows, legend_layout_item_flow, legend_layout, plot_legend_borders, plot_legend_items, plot_legend", "src/figure/legend_item.cc: legend_item_calculate_size, legend_item_draw"]}
{"id": "C96", "title": "Each element of a plot is drawn exactly as its options and data say", "statement": "For every part of a plot (background, lines, points, labels, bars, areas, errorbars, rectangles, vectors, polygons, grid, legend, axis, axes): given any argument list and any state of the plot, the command succeeds with the new state s' if and only if all options are accepted, they give (starting from the documented defaults, last one wins) settings with which the data can be placed on the scales, and s' is the old state with exactly the shapes of the described picture added; for `axes` also with the remaining area as the new area of the plot.", "quantifier": "all argument lists, all plot states (page, scales, margins, area) with a non-empty palette, all data files and fonts", "why_tests_cant": "argument lists, data and plot states are infinite; the claim is an equivalence (nothing else is accepted, nothing else is drawn)", "anchors": ["src/plot/lines.cc: lines_configure, lines_draw", "src/plot/points.cc: points_configure, points_draw", "src/plot/bars.cc: bars_configure, bars_draw", "src/plot/areas.cc: areas_configure, areas_draw", "src/plot/errorbars.cc: errorbars_configure, errorbars_draw", "src/plot/rectangles.cc: rectangles_configure, rectangles_draw", "src/plot/vectors.cc: vectors_configure, vectors_draw", "src/plot/labels.cc: labels_configure, labels_draw", "src/plot/polygons.cc: polygons_configure, polygons_draw", "src/plot/grid.cc: plot_grid", "src/plot/plotgen.cc: plot_set_background", "src/figure/legend.cc: plot_legend", "src/plot/axis.cc: plot_axis, plot_axes"]}
{"id": "C97", "title": "A plot is read twice, and its picture is exactly the described one", "statement": "The plot module succeeds on a list of commands with the page L' if and only if: in a first reading the scale options set up the scales and every data element extends the automatic limits to exactly the least and greatest of its values (and the given limits); in a second reading each element draws its picture, in the order of the commands, with the scales of the end of the first reading, inside the page without its margins or what the last `axes` left over; commands with other names are skipped; L' is L with these shapes added and nothing else changed.", "quantifier": "all lists of commands, all pages with a non-empty palette, all data files and fonts", "why_tests_cant": "the plots and their data are infinite, and limits couple all elements of a plot", "anchors": ["src/plot/plotgen.cc: plot_eval, plot_prepare, plot_draw, plot_get_clip", "src/plot/lines.cc: lines_autorange", "src/plot/polygons.cc: polygons_autorange", "src/scale.cc: scale_fit"]}
{"id": "C98", "title": "A text is accepted exactly if it describes a picture, and that picture is what is drawn", "statement": "For every text and every initial page: evaluation succeeds with the picture L' if and only if the text is written in the plist syntax (up to missing closing parentheses of value lists), its settings (which may stand anywhere; a drawing must not end with one) describe a page and a class, the class is plot or draw, and its other commands describe, on this page, the picture L'. The SVG file of an accepted text shows exactly its shapes, in order, on a white page of its size.", "quantifier": "all texts (finite sequences of characters), all fonts, data files and number readers", "why_tests_cant": "texts are infinite; the claim is an equivalence from the characters of the input to the shapes of the output", "anchors": ["src/eval.cc: eval", "src/plist_parser.cc: PropertyListParser", "src/plot/plotgen.cc: plot_eval", "src/draw.cc: draw_eval", "src/graphics/export_svg.cc: export_svg"]}
{"id": "C99", "title": "The program writes exactly the picture that the input describes, or nothing", "statement": "Called with one input and an SVG output, in any order and spelling of the options, the program succeeds if and only if the fonts named by the options and the default fonts can be loaded, the input (a file or the standard input) can be read, its text describes a picture on the empty page with these fonts (those of the command line first, the last one foremost), and the picture can be written as SVG; it then writes exactly this text to the output file or to the standard output and ends with status 0. Otherwise it ends with status 1 and writes nothing. A font name is a file if it is an absolute path or ends in .otf or .ttf, and otherwise a pattern for the system's font search.", "quantifier": "all command lines with one input and a non-empty SVG output, all file contents, font systems and number readers", "why_tests_cant": "the claim is an equivalence from command line and file contents to output; both sides range over infinite sets", "anchors": ["src/cli.cc: main", "src/context.cc: context_setup_defaults", "src/layer.cc: layer_create", "src/graphics/font_lookup.cc: font_load_best, font_load_defaults", "src/eval.cc: eval"]}
{"id": "C100", "title": "A glyph is drawn with the outline that the font gives it", "statement": "The path of a glyph draws the contours of its outline one after the other: from an on-point to the next a line, a quadratic curve through each conic control point with the implied point in the middle between two successive ones, a cubic curve for two cubic control points; each contour starts at its first point, or at its last one if only that is on the curve, or in the middle between the two, and is closed. Whatever the font file contains, the path consists of one closed part per contour and is nowhere outside the convex hull of the points. Violations stated as such: a malformed contour is silently cut off, one that starts with a cubic point aborts the program.", "quantifier": "all outlines (any number of contours and points, any coordinates and flags)", "why_tests_cant": "outlines are arbitrary data from font files", "anchors": ["src/graphics/font_lookup.cc: font_get_glyph_path"]}
{"id": "C101", "title": "The C interface evaluates what it is given", "statement": "clip_eval returns 1 exactly if the text describes a picture, clip_get_result then returns the exported picture, and clip_get_error the message of the last error. Violated by the code: in every history of calls clip_eval returns 1 for every text and clip_get_result returns nothing; only setting an unknown output format is reported, and the message stays until the next error.", "quantifier": "all histories of calls on a context, all texts", "why_tests_cant": "histories are unbounded; a test sees single calls", "anchors": ["src/api.cc: clip_eval, clip_get_result, clip_get_error, clip_set_output_format"]}
{"id": "C102", "title": "The export ends", "statement": "Exporting a picture ends with one document: whatever shapes are drawn, and however they are hatched, the export writes the document and returns. Violated by the code: the export hangs exactly if a hatched shape has two edges of length zero, such as a hatched bar with its value at the base line; an unhatched picture, and a hatched one without edges of length zero, is always exported.", "quantifier": "all pictures: any number of shapes, paths and styles", "why_tests_cant": "the loop over the stripes has no bound, and whether it ends depends on every edge of every shape", "anchors": ["src/graphics/export_svg.cc: export_svg, svg_add_path, svg_add_path_fill_hatch", "src/graphics/shape_hatch.cc: shape_hatch", "src/plot/bars.cc: bars_draw"]}
{"id": "C103", "title": "The options of the manual are taken", "statement": "Every option that the manual lists for a plot element (lines, points, bars, areas, errorbars, rectangles, vectors, labels, grid, axis, axes, legend) is an option that the element accepts, with suitable arguments. The same holds for the options of documents and of the command line.", "quantifier": "every documented element and option, every state of the plot, every environment in which 0 is a number and some font can be loaded", "why_tests_cant": "the tables of the manual and of the code are written by hand, independently; examples show a few options only", "anchors": ["src/plot/lines.cc: lines_configure", "src/plot/points.cc: points_configure", "src/plot/rectangles.cc: rectangles_configure", "src/plot/axis.cc: plot_axis, plot_axes", "src/figure/legend.cc: legend_configure_position, legend_item_configure", "doc/plot/rectangles.yaml: sizes", "doc/plot/axes.yaml: tick-placement-x"]}
{"id": "C104", "title": "A plot does not depend on the units of its data", "statement": "If all the values along one linear scale of a plot are converted by x \u21a6 a*x + b with a > 0, and the limits and the padding of the scale, if given, as well, then no point of any series moves; automatic limits are converted with the data. Hence a whole plot is drawn identically if the values along its horizontal or its vertical scale are given in other units (for instance degrees Fahrenheit instead of Celsius) in all its elements and limits, lengths by a alone, and everything else is the same; or it is refused in both cases.", "quantifier": "all series, all numbers a > 0 and b, all plots whose scale is linear, made of margins, limits, background, legend, lines, points, bars, areas, errorbars, rectangles, vectors and labels, all options (bars and areas that run along the scale start at zero: for them b = 0), all pages", "why_tests_cant": "A test compares two plots of one series in two units; the property is about every conversion and every series.", "anchors": ["src/plot/points.cc: points_draw, points_autorange", "src/scale.cc: scale_translate, scale_translatev, scale_min, scale_max, scale_fit"]}
{"id": "C105", "title": "The elements of a plot can be rearranged", "statement": "Two neighbouring elements of a plot that draw something (grid, background, legend, axis, areas, bars, errorbars, labels, lines, points, rectangles, vectors) can be exchanged: the plot still succeeds, each of them draws the same shapes, and only the order of the shapes on the page changes. Hence every permutation of such elements draws a permutation of the same shapes. Leaving out a grid, a background, a legend or an axis takes away its shapes and nothing else.", "quantifier": "all plots, all elements with all options, all pages, all permutations", "why_tests_cant": "There are infinitely many plots and permutations; a test can only try some.", "anchors": ["src/plot/plotgen.cc: plot_eval, plot_prepare, plot_draw", "src/plot/lines.cc: lines_autorange", "src/scale.cc: scale_fit"]}
{"id": "C107", "title": "What is written as the argument of an option means exactly what the documentation says, and nothing else is accepted", "statement": "A plain number is a text that begins with a number.  A size is a number with a unit: mm (dpi/25.4 pixels), pt (dpi/72), px, em or rem (font size), or zero without a unit; a position likewise, with % of the width or height of the page instead of em.  A measure that is converted later keeps its number and unit.  A colour is `#rgb`, `#rrggbb` or `#rrggbbaa` with hexadecimal channels, the number of an entry of the palette, `(rgb \u2026)` or `(rgba \u2026)`.  Texts are words or a column of a CSV file; data are a column, a `(list \u2026)` or words.  A marker is one of the documented shapes, a colour map is `gradient` or `steps` with positions and colours in turn, a size map is `(linear a b)`, a number format is one of the documented ones.  In each case: accepted exactly if of this form, with exactly this value.", "quantifier": "every argument expression, every page size and resolution, every palette, every file contents, every number reader", "why_tests_cant": "the arguments are arbitrary expressions; tests can only try some of them, in particular of those that must be refused", "anchors": ["src/sexpr_conv.cc: expr_to_float64, expr_to_number", "src/graphics/measure.cc: parse_measure, measure_normalize", "src/units.cc: unit_parse, unit_from_mm, unit_from_pt", "src/layer.cc: layer_get_uconv_size, layer_get_uconv_width, layer_get_uconv_height", "src/color_reader.cc: expr_to_color, color_map_read", "src/graphics/color.cc: Color::parse", "src/data.cc: data_load_simple, data_load_strings", "src/typographic_reader.cc: measure_map_read", "src/marker.cc: marker_configure", "src/format.cc: format_configure"]}
{"id": "C106", "title": "With set limits, the elements of a plot do not influence each other", "statement": "In a plot whose four limits are set (limit-x, limit-y or the -min/-max forms), leaving out any element (polygons, grid, background, legend, axis, areas, bars, errorbars, labels, lines, points, rectangles, vectors) takes away exactly what it drew: everything else is drawn as before, in the same order. And combining: if the plot with common commands D and elements A succeeds, and so does the plot with D and elements B, then the plot with D, A and B succeeds and shows what is common, then what A shows, then what B shows.", "quantifier": "all plots whose limits are set, all elements with all options and data, all pages", "why_tests_cant": "There are infinitely many plots; a test can only try to leave out some elements of some of them.", "anchors": ["src/plot/plotgen.cc: plot_eval, plot_prepare, plot_draw", "src/scale.cc: scale_fit, scale_min, scale_max", "src/plot/polygons.cc: polygons_autorange"]}
{"id": "C108", "title": "An image shows the background and every shape of the drawing, in order, exactly where the drawing has it", "statement": "Exporting a page as an image paints the background colour everywhere and then, for every shape in order, its fill (solid, or the hatched outline) and its stroke (colour, width, dash pattern), with every point (x, y) of the page at (x, height - y); what one shape paints does not depend on the shapes before it. A text is painted glyph by glyph at the transformed positions, in its size and colour.", "quantifier": "all pages, all drawings with all styles, all texts and transformations", "why_tests_cant": "Drawings are unbounded lists of shapes and the drawing context is a state machine whose settings could leak from one shape to the next; a test compares a few pictures.", "anchors": ["src/graphics/export_image.cc: page_export_png", "src/graphics/rasterize.cc: Rasterizer, cairo_set_path, drawShape, drawText, clear", "src/graphics/draw_cmd.cc: draw_shape"]}
{"id": "C109", "title": "Optional values keep exactly one value alive", "statement": "For every program that constructs, copies, moves, assigns and destroys optional values (Option<T>): nothing undefined happens, every option holds exactly the value it was last given, moved-from options are empty, and every contained value is destroyed exactly once; self-assignment and an exception during an assignment leave the options as they were.", "quantifier": "all sequences of operations on any number of options, all values", "why_tests_cant": "a test runs a few sequences; lifetimes must be right in every history", "anchors": ["src/utils/option_impl.h: Option::Option, Option::~Option, Option::operator=, Option::get, Option::value_or", "src/utils/option.h: Option"]}
{"id": "C110", "title": "Making a directory with its parents", "statement": "FileUtil::mkdir_p makes the directory and those it is in that are missing, and changes nothing else; it succeeds exactly if nothing on the way is a file and the system allows it. If it fails, nothing but missing directories on the way has been made. FileUtil::exists tells whether something is there, and raises an exception exactly if the path goes through a file.", "quantifier": "all trees of files and directories, all paths, all failures of the system", "why_tests_cant": "a test has a few directories; the property is about every file system and every spelling of the path", "anchors": ["src/utils/fileutil.cc: FileUtil::mkdir_p, FileUtil::mkdir, FileUtil::exists, FileUtil::isDirectory"]}
{"id": "C111", "title": "Numbers with metric prefixes are right", "statement": "StringUtil::formatNumberMetric shows a number by a decimal number of at most a thousand and the letter for its power of ten, within five percent; numbers from a tenth to a thousand have no letter.", "quantifier": "all real numbers", "why_tests_cant": "ranges of numbers meet at nine boundaries; a test tries a few numbers", "anchors": ["src/utils/stringutil_impl.h: StringUtil::formatNumberMetric"]}
{"id": "C112", "title": "Output streams deliver everything in order", "statement": "Whatever sequence of writes and prints goes to an output stream, its target grows by exactly these texts in order, and the number returned is the number of bytes delivered. A stream on a file closes its file when it is destroyed, and only that; errors of the system are raised as exceptions. (Violated: a text of 8192 bytes or more cannot be printed to a string; when the system takes only part of a text the rest is lost silently; a file that gets descriptor 0 is reported as failed and stays open.)", "quantifier": "all sequences of writes and prints, all texts, all behaviours of the operating system's write, vdprintf and open", "why_tests_cant": "Depends on the history of operations and on how much the operating system takes at each call.", "anchors": ["src/utils/outputstream.cc: OutputStream::printf, FileOutputStream::openFile, FileOutputStream::write, StringOutputStream::write, BufferOutputStream::write", "src/utils/outputstream.h"]}
{"id": "C113", "title": "The values of the manual are taken", "statement": "Every tick layout, number format, scale type, colour map and length unit that the manual documents is accepted where an option asks for one, and means what the manual says: the layouts with the numbers given (eight divisions for a subdivision without a number), the formats with the number of digits given (one if none is given), a logarithmic scale with the base given (ten if none is given), categories in the order written, the stops of a colour map in the order written, and lengths in px, mm, pt and em.", "quantifier": "every number, category, colour and environment of the plot", "why_tests_cant": "the values range over all numbers, lists of categories and lists of stops", "anchors": ["src/scale.cc: scale_configure_kind, scale_configure_layout", "src/format.cc: format_configure", "src/color_reader.cc: color_map_read", "src/typographic_reader.cc: expr_to_size", "src/layer.cc: layer_get_uconv_size", "doc/plot/scale-layout.md", "doc/plot/scale-types.md", "doc/plot/number-format.md", "doc/plot/color-maps.md", "doc/typographic.md"]}
{"id": "C114", "title": "The order of options that set different things does not matter", "statement": "The options of a plot element can be given in any order, as long as options that set the same thing (such as limit-x and limit-x-min, or color and stroke-color) keep their order among each other: the picture is the same, and a document is refused in one order exactly if it is refused in the other. This holds for all elements of a plot, for the items of a legend, for the rectangles and texts of a drawing, and for any number of elements at once.", "quantifier": "every document, every permutation of the options of each of its elements that keeps the order within each group of options that set the same thing, every environment and page", "why_tests_cant": "there are factorially many orders of the options of every document", "anchors": ["src/plot/lines.cc: lines_configure", "src/plot/points.cc: points_configure", "src/plot/bars.cc: bars_configure", "src/plot/areas.cc: areas_configure", "src/plot/errorbars.cc: errorbars_configure", "src/plot/rectangles.cc: rectangles_configure", "src/plot/vectors.cc: vectors_configure", "src/plot/labels.cc: labels_configure", "src/plot/polygons.cc: polygons_configure", "src/plot/axis.cc: plot_axis, plot_axes", "src/figure/legend.cc: plot_legend", "src/sexpr_util.cc: expr_walk_map"]}
{"id": "C115", "title": "Blanks, commas and quotes around names do not matter", "statement": "Two texts with the same tokens give the same picture, or are both refused: blanks, line breaks, kinds of quotes and escapes can be chosen freely. Commas can be put or left out, and names can be quoted or not: two accepted texts that differ in these only have the same meaning, and leaving all commas and such quotes out of an accepted text gives an accepted one.", "quantifier": "all pairs of texts that differ in this way only, every environment and page", "why_tests_cant": "all texts and all ways to write them cannot be enumerated", "anchors": ["src/plist_parser.cc: PropertyListParser::parse, getToken, parseProperty, parsePropertyValues, parsePropertyValueOrEnum, parsePropertyMap", "src/eval.cc: eval"]}
{"id": "C116", "title": "Axis labels and titles stay in the room reserved for them", "statement": "With the labels and the title on the outer side of each axis (the default), unturned labels and any title rotation, no point of a label or title that `axes` draws lies inside the area that remains for the plot, nor outside the area the plot had before less the margins: labels lie between the label gap and the label gap plus the label room, the title beyond them within its own room. This holds for every font whose glyph outlines stay in their boxes and for all left-to-right texts. Turned labels violate it: a label of the bottom axis turned by 90 degrees is turned about the middle of its upper edge and reaches into the plot area when it is wider than twice the gap.", "quantifier": "all fonts (as glyph metrics and outlines), label texts, positions, font sizes, gaps, rotations of the title, page sizes and resolutions", "why_tests_cant": "the geometry depends on the metrics of every glyph of every font and on every rotation angle; tests compare a few rendered images", "anchors": ["src/plot/axis.cc: axis_layout, axis_layout_labels, axis_layout_title, plot_axis_vertical, plot_axis_horizontal, plot_axes", "src/graphics/text.cc: text_measure_label", "src/graphics/text_layout.cc: text_layout_line"]}
{"id": "C117", "title": "Files are opened, read and written as documented", "statement": "Opening a file with any combination of the documented flags fails exactly in the documented cases and otherwise gives the documented contents, position and rights; reads return the contents from the position on and advance it, writes put the bytes at the position, so that consecutive writes give the bytes one after the other; seeking, size and truncation act on position and contents only. Writing a whole file either leaves exactly the given bytes or raises, leaves other files alone, and what was written is what is read. Whatever happens no descriptor stays open. Violations: the append flag is ignored and overwrites the file; reading a whole file returns uninitialised bytes without an error when the system reads less than everything (files of more than 2 GiB); a failed write loses the old contents.", "quantifier": "all flags, file systems, contents, positions, sequences of operations, and all decisions of the operating system (failures and short transfers)", "why_tests_cant": "short transfers and failures depend on the operating system and cannot be provoked in unit tests", "anchors": ["src/utils/file.cc: File::openFile, File::read, File::write, File::seekTo, File::size, File::truncate", "src/utils/file.h: kOpenFlags", "src/utils/fileutil.cc: FileUtil::read, FileUtil::write"]}
{"id": "C118", "title": "File descriptors are closed exactly once", "statement": "Whatever sequence of opening, moving, cloning, reading, writing and destroying of file objects a program performs, and whichever of these operations fail, no descriptor is closed twice, two objects never own the same descriptor, and when all objects are destroyed exactly the descriptors of the beginning are open.", "quantifier": "all sequences of operations on any number of file objects and all decisions of the operating system", "why_tests_cant": "ownership must be right for every history of moves, clones and failures", "anchors": ["src/utils/file.cc: File::File, File::~File, File::clone, File::openFile"]}
{"id": "C119", "title": "Labels of time axes show the instant of the tick", "statement": "With the format `datetime`, the label of a tick whose value is a non-negative number of seconds since 1970 is the one instant (day of the Gregorian calendar, hour, minute, second, UTC) that value lies in, written in the configured format; without a format it is written `YYYY-MM-DD hh:mm:ss`. Such labels sort alphabetically exactly as the instants sort in time, two ticks have the same label just when they lie in the same second, and a label in the ISO 8601 format is read back by the time reader as the same second.", "quantifier": "every non-negative value of a tick (below 2^64 microseconds), every label format made of text and the calendar fields, every label shorter than 256 bytes", "why_tests_cant": "values range over nearly six hundred thousand years with leap years and centuries; tests look at a few dates", "anchors": ["src/format.cc: format_datetime, format_configure_datetime", "src/utils/UnixTime.cc: UnixTime::toString", "src/utils/ISO8601.cc: ISO8601::parse"]}
{"id": "C120", "title": "Error messages name what may be used", "statement": "When a value is refused because it is not one of a fixed set (kind of scale, placement of ticks, label format, page size, unit, colour map, size map, data format, line style, switch), the message repeats the value and lists words such that exactly the listed words are accepted at that place: every listed word can be used and every word that is not listed is refused with that error.", "quantifier": "every place with a fixed set of values, every word written there", "why_tests_cant": "there are infinitely many words that must be refused; tests try a typo", "anchors": ["src/return_code.cc: err_invalid_value", "src/scale.cc: scale_configure_kind, scale_configure_layout", "src/format.cc: format_configure", "src/layer.cc: layer_resize", "src/data.cc: data_load_polylines2, data_load_points2", "src/color_reader.cc: color_map_read", "src/typographic_reader.cc: size_map_read", "src/style_reader.cc: stroke_style_read", "src/graphics/measure.cc: parse_measure"]}
{"id": "C121", "title": "Listing directories and adding up the sizes of files", "statement": "Listing a directory tells the callback exactly the names in it that are not hidden, in the order of the system, until it asks to stop; something that is no directory is refused. The size of a directory is the number of bytes of all files in it and in the directories inside it, and computing it finishes.", "quantifier": "every directory tree (any depth, any number of files), every callback, every spelling of the path", "why_tests_cant": "trees are unbounded in depth and width", "anchors": ["src/utils/fileutil.cc: FileUtil::ls, FileUtil::du_c, FileUtil::isDirectory, FileUtil::size"]}
{"id": "C122", "title": "The notation of values does not matter", "statement": "Giving the data of an element as a list in the document or as a column of a CSV file, a colour as #rgb, #rrggbb, rgb(...) or a palette number, and a length in another unit, never changes the picture as long as the values meant are the same: the plot is drawn identically, or refused in both cases. The same holds for colours, fills, strokes, positions and sizes in drawings.", "quantifier": "all plots and documents, and all ways to replace any number of data sources, colours and lengths in the options of their elements (including axes, legends and their items; in drawings rectangle and text) and in their margins by others with the same value", "why_tests_cant": "the set of equivalent notations of a document is infinite (arbitrary file contents, quoting, dialects, units) and every option of every element has its own reader", "anchors": ["src/data.cc: data_load_simple, data_load_strings, data_load_points2, data_load_polylines2", "src/color_reader.cc: expr_to_color", "src/sexpr_conv.cc: expr_to_number, expr_to_vec2", "src/plot/lines.cc: lines_configure", "src/plot/points.cc: points_configure", "src/plot/bars.cc: bars_configure"]}
{"id": "C123", "title": "Times can be read back", "statement": "A time written in a format that mentions year, month, day, hour, minute and second and read in the same format is the same time stamp, without the fraction of the second; a format that leaves one of them out gives a result with the parts that were read, the text is read up to the given length only, and days that do not exist are refused.", "quantifier": "all instants of the years 1970 to 9999 and all formats made of ordinary characters and the conversions %Y %m %d %H %M %S %F %T %R %%", "why_tests_cant": "there are infinitely many formats, and the calendar has special cases a sample of dates misses", "anchors": ["src/utils/CivilTime.cc: CivilTime::parseString", "src/utils/UnixTime.cc: UnixTime::parseString, UnixTime::toString, UnixTime::UnixTime"]}
{"id": "C124", "title": "Random texts", "statement": "The text of a random number of 64, 128, 256 or 512 bits has 16 hexadecimal digits for every 64 bits and is the bits the generator produced, so that different numbers have different texts and no generator output is refused; a random alphanumeric text has exactly the wanted number of characters, digits and capital letters only, and every such text can occur.", "quantifier": "all sequences of words the generator may produce, all lengths", "why_tests_cant": "a test sees a handful of random values; zero words are practically never produced in a test", "anchors": ["src/utils/random.cc: Random::random64, Random::hex64, Random::hex128, Random::hex256, Random::hex512, Random::alphanumericString"]}
{"id": "C125", "title": "Clocks", "statement": "Seconds, milliseconds and microseconds of the same instant are one another rounded down; a later instant never has an earlier time in any unit; the difference of two readings of the monotonic clock is the time between them to a microsecond. A number of days from now is the instant that many times 24 hours later, to a microsecond, at the same time of day for whole days.", "quantifier": "all instants a system clock can report in the next half million years", "why_tests_cant": "tests cannot choose the time that is read", "anchors": ["src/utils/wallclock.cc: WallClock::unixSeconds, WallClock::unixMillis, WallClock::unixMicros, MonotonicClock::now", "src/utils/UnixTime.cc: UnixTime::daysFromNow"]}
{"id": "C126", "title": "Images in PNG files", "statement": "The PNG file of an image has its size, kind of pixels and eight bits for every channel, and pixel (x, y) of the file is pixel (x, y) of the image; if the file cannot be opened an error is returned.", "quantifier": "all images of both pixel formats and all sizes, all pixels", "why_tests_cant": "row and pixel offsets depend on width, height and format together; a test image of one size can agree by accident", "anchors": ["src/graphics/png.cc: pngWriteImageFile", "src/graphics/image.cc: Image::Image, Image::getPixel, Image::clear"]}
{"id": "C127", "title": "Resolution", "statement": "A plot or drawing on a page whose size is given in millimetres or points and which has no lengths in pixels is the same picture at every resolution: with k times as many dots per inch every point, line width, dash, hatch, marker and glyph is k times as far away and k times as large, the colours and the order of the shapes are the same, and the document is refused at one resolution if and only if it is refused at the other.", "quantifier": "all plots, all drawings, all documents, all positive real factors k", "why_tests_cant": "a test compares two resolutions for one plot; a single default or padding that is a number of pixels shows only where it is used", "anchors": ["src/units.cc: unit_from_mm, unit_from_pt, unit_from_em", "src/graphics/measure.cc: parse_measure, measure_or", "src/layer.cc: layer_get_uconv_size, layer_get_uconv_font_size", "src/figure/legend.cc: plot_legend, legend_layout", "src/plot/plotgen.cc: plot_eval, plot_prepare, plot_draw", "src/plot/axis.cc: plot_axes, axis_layout, axis_set_defaults", "src/plot/lines.cc: lines_draw", "src/plot/bars.cc: bars_draw"]}
{"id": "C128", "title": "Removing, renaming and truncating files", "statement": "Removing a file removes exactly this name; other names and open files are not affected, and failure is reported. Renaming succeeds exactly if the file exists and the system permits it; then the new name has the contents of the old one, the old name is gone, and everything else is as before; otherwise an error is reported and nothing changes. Truncating gives the file exactly the requested length, keeping the beginning and adding zeros, and changes no other file. Writing under another name and renaming replaces a file completely or not at all.", "quantifier": "all file systems, names, contents, lengths, and all decisions of the operating system", "why_tests_cant": "The claims range over all states of the file system, including several names of one file and files that are open, and over all failures of the system.", "anchors": ["src/utils/fileutil.cc: FileUtil::rm, FileUtil::mv, FileUtil::truncate, FileUtil::write"]}
