{
 "claims": [
  {
   "property": "C01",
   "status": "proved",
   "theorems": [
    "Clip.C01_sexpr_roundtrip"
   ],
   "note": "all printable expression chains"
  },
  {
   "property": "C02",
   "status": "proved",
   "theorems": [
    "Clip.C02_sexpr_balanced"
   ],
   "note": "lexically valid documents"
  },
  {
   "property": "C03",
   "status": "proved",
   "theorems": [
    "Clip.C03_sexpr_layout_irrelevant"
   ],
   "note": ""
  },
  {
   "property": "C04",
   "status": "partial",
   "theorems": [
    "Clip.C04_sexpr_termination_fails",
    "Clip.C04_sexpr_diverges_iff",
    "Clip.C04_sexpr_terminates_partial"
   ],
   "note": "The code violates the property: a backslash outside a string loops forever. Negation proved with witness, exact characterisation of the diverging inputs proved."
  },
  {
   "property": "C05",
   "status": "proved",
   "theorems": [
    "Clip.C05_clone"
   ],
   "note": ""
  },
  {
   "property": "C06",
   "status": "proved",
   "theorems": [
    "Clip.C06_plist_roundtrip",
    "Clip.C06_plist_accepts"
   ],
   "note": ""
  },
  {
   "property": "C07",
   "status": "proved",
   "theorems": [
    "Clip.C07_plist_terminates"
   ],
   "note": ""
  },
  {
   "property": "C46",
   "status": "partial",
   "theorems": [
    "Clip.C46_plist_unclosed_paren_accepted",
    "Clip.C46_plist_accepts_iff_partial"
   ],
   "note": "Violated by the code: a missing ')' before ';' is accepted (result of expectAndConsumeToken ignored). Witness proved; exact acceptance characterised."
  },
  {
   "property": "C47",
   "status": "proved",
   "theorems": [
    "Clip.C47_plist_unterminated_string"
   ],
   "note": ""
  },
  {
   "property": "C08",
   "status": "proved",
   "theorems": [
    "Clip.C08_strict_dispatch"
   ],
   "note": ""
  },
  {
   "property": "C09",
   "status": "partial",
   "theorems": [
    "Clip.C09_passthrough_fails",
    "Clip.C09_passthrough_exact",
    "Clip.C09_passthrough_partial"
   ],
   "note": "Violated by the code: an unknown command is handed on together with everything after it. Counterexample, exact left-overs, and the positive case (all settings first) proved."
  },
  {
   "property": "C40",
   "status": "proved",
   "theorems": [
    "Clip.C40_first_error_wins",
    "Clip.C40_success_iff"
   ],
   "note": ""
  },
  {
   "property": "C44",
   "status": "partial",
   "theorems": [
    "Clip.C44_eval_module_partial",
    "Clip.C44_eval_unknown_module",
    "Clip.C44_eval_order_fails"
   ],
   "note": "Holds when settings precede the module commands; with another order later settings are executed and handed to the module again (proved counterexample)."
  },
  {
   "property": "C48",
   "status": "partial",
   "theorems": [
    "Clip.C48_plot_unknown_ignored",
    "Clip.C48_draw_unknown_partial",
    "Clip.C48_text_ignored"
   ],
   "note": "Violated for plots (proved: the unknown command is ignored, also for whole texts); holds for the draw module."
  },
  {
   "property": "C49",
   "status": "proved",
   "theorems": [
    "Clip.C49_plot_two_phases",
    "Clip.C49_plot_prepare_error"
   ],
   "note": ""
  },
  {
   "property": "C10",
   "status": "partial",
   "theorems": [
    "Clip.C10_csv_roundtrip",
    "Clip.C10_csv_any_writing_partial",
    "Clip.C10_csv_trailing_empty_lost"
   ],
   "note": "Round trip proved for every writer that terminates the last line (and for unterminated last lines not ending in an empty bare field). RFC 4180 allows omitting the last line break; then the code loses an empty last field (proved)."
  },
  {
   "property": "C11",
   "status": "proved",
   "theorems": [
    "Clip.C11_csv_total",
    "Clip.C11_csv_accepts_iff",
    "Clip.C11_csv_unterminated",
    "Clip.C11_csv_stray",
    "Clip.C11_csv_lone_cr"
   ],
   "note": ""
  },
  {
   "property": "C12",
   "status": "partial",
   "theorems": [
    "Clip.C12_extract_column",
    "Clip.C12_extract_missing",
    "Clip.C12_extract_short_row_partial",
    "Clip.C12_extract_off_by_one"
   ],
   "note": "Violated by the code: off-by-one in the row length check, a row exactly one entry too short throws instead of being reported (proved)."
  },
  {
   "property": "C13",
   "status": "proved",
   "theorems": [
    "Clip.C13_series_group",
    "Clip.C13_partition"
   ],
   "note": ""
  },
  {
   "property": "C50",
   "status": "proved",
   "theorems": [
    "Clip.C50_databuf"
   ],
   "note": ""
  },
  {
   "property": "C51",
   "status": "partial",
   "theorems": [
    "Clip.C51_inline_list",
    "Clip.C51_csv_arguments",
    "Clip.C51_csv_column",
    "Clip.C51_inline_other_list"
   ],
   "note": "Violated for lists with another head: they load as one empty value (proved)."
  },
  {
   "property": "C52",
   "status": "proved",
   "theorems": [
    "Clip.C52_format",
    "Clip.C52_polylines_csv"
   ],
   "note": ""
  },
  {
   "property": "C53",
   "status": "partial",
   "theorems": [
    "Clip.C53_points_csv_refused",
    "Clip.C53_points_inline_partial"
   ],
   "note": "Violated: CSV for points is always refused (proved); inline data works (proved)."
  },
  {
   "property": "C54",
   "status": "proved",
   "theorems": [
    "Clip.C54_geojson_lines"
   ],
   "note": ""
  },
  {
   "property": "C14",
   "status": "proved",
   "theorems": [
    "Clip.C14_utf8_roundtrip",
    "Clip.C14_long_forms_fail"
   ],
   "note": "All code points below 2^21 (a superset of Unicode). C14_long_forms_fail documents two defects of the five/six-byte forms outside Unicode."
  },
  {
   "property": "C15",
   "status": "proved",
   "theorems": [
    "Clip.C15_utf32_roundtrip",
    "Clip.C15_count",
    "Clip.C15_utf8_roundtrip"
   ],
   "note": "Texts without U+0000 (the code uses 0 as end marker)."
  },
  {
   "property": "C16",
   "status": "partial",
   "theorems": [
    "Clip.C16_accepts_wellformed_partial",
    "Clip.C16_truncated_refused",
    "Clip.C16_continuation_unchecked",
    "Clip.C16_ascii_first_accepted",
    "Clip.C16_accepts_malformed",
    "Clip.C16_diverges"
   ],
   "note": "Violated by the code in both directions (accepts garbage after ASCII; endless loop on stray continuation bytes), both proved. Completeness half proved."
  },
  {
   "property": "C55",
   "status": "partial",
   "theorems": [
    "Clip.C55_utf16_bmp_partial",
    "Clip.C55_utf16_truncates"
   ],
   "note": "Violated outside the BMP (proved), holds inside (proved)."
  },
  {
   "property": "C17",
   "status": "proved",
   "theorems": [
    "Clip.C17_civil_to_unix",
    "Clip.C17_every_date",
    "Clip.C17_order"
   ],
   "note": "Stamps that fit 64 bits, i.e. all valid times until the year 9999 and far beyond."
  },
  {
   "property": "C18",
   "status": "partial",
   "theorems": [
    "Clip.C18_iso8601_exact",
    "Clip.C18_iso8601_roundtrip_partial",
    "Clip.C18_iso8601_date",
    "Clip.C18_no_such_day_accepted",
    "Clip.C18_hour_24_accepted",
    "Clip.C18_trailing_text_accepted",
    "Clip.C18_short_input_undefined",
    "Clip.C18_accepts_iff",
    "Clip.C18_undefined_iff",
    "Clip.C18_refuses_iff",
    "Clip.C18_one_meaning"
   ],
   "note": "Violated by the code: the day is checked against the length of month number <day>, so 30/31 February are accepted (proved for every year). Every valid time is read back exactly (proved); the exact accepted set is C18_iso8601_exact."
  },
  {
   "property": "C19",
   "status": "proved",
   "theorems": [
    "Clip.C19_add_sub",
    "Clip.C19_diff",
    "Clip.C19_units",
    "Clip.C19_from",
    "Clip.C19_nanoseconds",
    "Clip.C19_from_exact"
   ],
   "note": ""
  },
  {
   "property": "C56",
   "status": "partial",
   "theorems": [
    "Clip.C56_inspect_parts",
    "Clip.C56_inspect_text_partial",
    "Clip.C56_inspect_years_fails"
   ],
   "note": "Violated from one year on: the blank behind the years is missing."
  },
  {
   "property": "C38",
   "status": "partial",
   "theorems": [
    "Clip.C38_json_string_partial",
    "Clip.C38_json_escapes_kept",
    "Clip.C38_json_unterminated_loops"
   ],
   "note": "Violated by the code: escapes are never decoded (the raw text is returned, proved for all strings), and an unterminated string never returns (proved). Strings without escapes are exact."
  },
  {
   "property": "C39",
   "status": "partial",
   "theorems": [
    "Clip.C39_geojson_document",
    "Clip.C39_geojson_terminates",
    "Clip.C39_line_shape",
    "Clip.C39_point_undefined",
    "Clip.C39_point_3d",
    "Clip.C39_polygon_4d_corrupt",
    "Clip.C39_multipolygon_empty_ring_undefined",
    "Clip.C39_geometry_collection_dropped",
    "Clip.C39_null_geometry_refused",
    "Clip.C39_type_not_string",
    "Clip.C39_not_object",
    "Clip.C39_empty",
    "Clip.C39_flat_refused",
    "Clip.C39_multiline_dimensions",
    "Clip.C39_delivered_before_error"
   ],
   "note": "Proved for documents of collections, features, multipoints, (multi)lines and (multi)polygons in two dimensions. Violated: every two-dimensional Point reads out of bounds (proved), and the other listed defects."
  },
  {
   "property": "C57",
   "status": "proved",
   "theorems": [
    "Clip.C57_json_tokens",
    "Clip.C57_json_skip",
    "Clip.C57_skip_terminates",
    "Clip.C57_skip_sound",
    "Clip.C57_skip_iff"
   ],
   "note": ""
  },
  {
   "property": "C58",
   "status": "proved",
   "theorems": [
    "Clip.C58_geojson_polylines",
    "Clip.C58_geojson_points",
    "Clip.C58_failures"
   ],
   "note": "Documents without single Points (see C39)."
  },
  {
   "property": "C37",
   "status": "partial",
   "theorems": [
    "Clip.C37_split",
    "Clip.C37_split_join",
    "Clip.C37_split_join_char",
    "Clip.C37_split_overlap",
    "Clip.C37_join",
    "Clip.C37_replace",
    "Clip.C37_replace_gone",
    "Clip.C37_replace_empty_recreates",
    "Clip.C37_replace_empty_pattern",
    "Clip.C37_prefix_suffix",
    "Clip.C37_compare",
    "Clip.C37_find"
   ],
   "note": "Proved for all texts except: multi-character delimiters that overlap a part are cut elsewhere (proved), and replacing an empty pattern never finishes (proved)."
  },
  {
   "property": "C59",
   "status": "partial",
   "theorems": [
    "Clip.C59_trim_partial",
    "Clip.C59_trim_undefined",
    "Clip.C59_join_paths_partial",
    "Clip.C59_strip_bytes",
    "Clip.C59_chomp_partial"
   ],
   "note": "Violated by the code: blank or empty texts are undefined behaviour (proved); holds for all others."
  },
  {
   "property": "C60",
   "status": "partial",
   "theorems": [
    "Clip.C60_is_number",
    "Clip.C60_decimal_accepted",
    "Clip.C60_not_numbers_accepted",
    "Clip.C60_strip_zeros"
   ],
   "note": "The accepted language is proved exactly; it contains texts without digits and lacks scientific notation."
  },
  {
   "property": "C61",
   "status": "proved",
   "theorems": [
    "Clip.C61_hex_print",
    "Clip.C61_strip_shell",
    "Clip.C61_is_hex"
   ],
   "note": ""
  },
  {
   "property": "C20",
   "status": "proved",
   "theorems": [
    "Clip.C20_linear_any_rounding",
    "Clip.C20_linear_exact"
   ],
   "note": "Linear scales map the range onto [0,1] and untranslate inverts translate; the _any_rounding theorem holds for every monotone rounding that fixes the end points."
  },
  {
   "property": "C21",
   "status": "partial",
   "theorems": [
    "Clip.C21_log_translate",
    "Clip.C21_log_untranslate_fails",
    "Clip.C21_log_untranslate_max_partial",
    "Clip.C21_log_nonpositive_min"
   ],
   "note": "The forward direction is proved for every base above one. The inverse is wrong in the code: C21_log_untranslate_fails is the counterexample theorem, C21_log_untranslate_max_partial what remains true."
  },
  {
   "property": "C22",
   "status": "partial",
   "theorems": [
    "Clip.C22_categorical",
    "Clip.C22_bounds",
    "Clip.C22_inverted_ignored",
    "Clip.C22_category_index",
    "Clip.C22_fraction_ignored"
   ],
   "note": "Positions and bounds are proved; the `invert` option is ignored for categorical scales (C22_inverted_ignored), which contradicts the full statement."
  },
  {
   "property": "C23",
   "status": "partial",
   "theorems": [
    "Clip.C23_fit",
    "Clip.C23_order",
    "Clip.C23_limits",
    "Clip.C23_covers_partial",
    "Clip.C23_float_limit_outside",
    "Clip.C23_nan_sticks",
    "Clip.C23_no_data"
   ],
   "note": "Exact and order independent on numbers; a rounded limit can leave a data point outside and a NaN datum sticks (both proved as counterexamples), so coverage is partial."
  },
  {
   "property": "C24",
   "status": "partial",
   "theorems": [
    "Clip.C24_linear",
    "Clip.C24_interval",
    "Clip.C24_linear_inside",
    "Clip.C24_align",
    "Clip.C24_align_inverted_outside",
    "Clip.C24_alignat_ticks",
    "Clip.C24_alignat_fails",
    "Clip.C24_alignat_multiple_partial",
    "Clip.C24_subdivide",
    "Clip.C24_subdivide_log_fails",
    "Clip.C24_exponential",
    "Clip.C24_exponential_outside",
    "Clip.C24_exp_steps",
    "Clip.C24_exp_steps_labels",
    "Clip.C24_exponential_rounding"
   ],
   "note": "Tick values and positions of every layout are characterised; alignat, subdivide on logarithmic scales, align on inverted scales and exponential violate the documented behaviour, each with a counterexample theorem."
  },
  {
   "property": "C25",
   "status": "partial",
   "theorems": [
    "Clip.C25_positive_step_terminates",
    "Clip.C25_negative_step_diverges",
    "Clip.C25_zero_step",
    "Clip.C25_lost_step_diverges",
    "Clip.C25_exponential_terminates",
    "Clip.C25_exponential_diverges",
    "Clip.C25_exponential_unbounded",
    "Clip.C25_exp_steps"
   ],
   "note": "Termination for every positive step in exact arithmetic; for exponential bases above one, termination is characterised exactly (lower limit and base of the scale, including infinite and NaN exponents), and the stepped layout ends exactly where the plain one does; negative steps, steps lost to rounding, bases of at most one and negative lower limits loop for ever (proved)."
  },
  {
   "property": "C29",
   "status": "proved",
   "theorems": [
    "Clip.C29_product",
    "Clip.C29_compose",
    "Clip.C29_compose_points",
    "Clip.C29_actions",
    "Clip.C29_inverses",
    "Clip.C29_from_deg",
    "Clip.C29_sort",
    "Clip.C29_mean",
    "Clip.C29_vectors",
    "Clip.C29_mirror"
   ],
   "note": "Exact arithmetic. Matrices are compared with Mathlib's matrices, rotation with multiplication by exp(-i a pi/180). Also the sorting and mean helpers of vmath.cc."
  },
  {
   "property": "C30",
   "status": "proved",
   "theorems": [
    "Clip.C30_transform",
    "Clip.C30_transform_compose",
    "Clip.C30_polygon_round_trip",
    "Clip.C30_poly2",
    "Clip.C30_rectangle",
    "Clip.C30_circle",
    "Clip.C30_to_polygon",
    "Clip.C30_add_lines",
    "Clip.C30_flatten"
   ],
   "note": "Exact arithmetic. C30_circle adds that the Bezier circle is within 0.0273 % of the true circle."
  },
  {
   "property": "C31",
   "status": "partial",
   "theorems": [
    "Clip.C31_margin_inside_partial",
    "Clip.C31_margin_size",
    "Clip.C31_margin_outside",
    "Clip.C31_align",
    "Clip.C31_rotate_bounds"
   ],
   "note": "Alignment and rotated bounds are proved in full. The margin box is inside only if the margins are non-negative and fit; C31_margin_outside proves the code violates the claim otherwise."
  },
  {
   "property": "C41",
   "status": "partial",
   "theorems": [
    "Clip.C41_point_on_both",
    "Clip.C41_parallel",
    "Clip.C41_threshold",
    "Clip.C41_orientation_matters",
    "Clip.C41_zero_direction",
    "Clip.C41_segment",
    "Clip.C41_segments",
    "Clip.C41_segment_complete",
    "Clip.C41_segments_complete",
    "Clip.C41_polygon"
   ],
   "note": "Exact arithmetic. Soundness, completeness and parallel lines are proved for non-zero directions; a zero direction is reported as an intersection at NaN (C41_zero_direction), and near-parallel lines are treated differently depending on the sign of the direction (C41_orientation_matters)."
  },
  {
   "property": "C62",
   "status": "partial",
   "theorems": [
    "Clip.C62_hatch_partial",
    "Clip.C62_degenerate_diverges",
    "Clip.C62_flat_rectangle_diverges",
    "Clip.C62_nan_vertex",
    "Clip.C62_stripes_partial",
    "Clip.C62_offset_empty",
    "Clip.C62_ends"
   ],
   "note": "Proved for polygons without zero-length edges; with two such edges (a rectangle of height zero) the loop is proved never to end, with one the output contains NaN vertices. Stripes: all those that cross the shape, outwards until the first distance at which none does; a large offset draws nothing (C62_offset_empty)."
  },
  {
   "property": "C42",
   "status": "partial",
   "theorems": [
    "Clip.C42_lines_partial",
    "Clip.C42_every_point_once",
    "Clip.C42_inside",
    "Clip.C42_geojson",
    "Clip.C42_surplus_labels_undefined"
   ],
   "note": "Exact drawing list for all data, groupings and markers; needs at most as many labels as points, because the code reads outside the data otherwise (proved as C42_surplus_labels_undefined). End to end for GeoJSON polylines."
  },
  {
   "property": "C63",
   "status": "partial",
   "theorems": [
    "Clip.C63_points_partial",
    "Clip.C63_bars_vertical",
    "Clip.C63_bars_vertical_offsets",
    "Clip.C63_bars_horizontal",
    "Clip.C63_areas",
    "Clip.C63_errorbars_vertical_partial",
    "Clip.C63_errorbar_caps",
    "Clip.C63_rectangles",
    "Clip.C63_vectors_partial",
    "Clip.C63_polygons_partial",
    "Clip.C63_grid_x",
    "Clip.C63_arrow",
    "Clip.C63_errorbars_horizontal_slanted",
    "Clip.C63_errorbar_degenerate",
    "Clip.C63_vectors_missing_direction",
    "Clip.C63_polygon_holes_unscaled",
    "Clip.C63_grid_y_mirrored",
    "Clip.C63_labels_mirrored",
    "Clip.C63_bar_labels_partial",
    "Clip.C63_lengths_partial",
    "Clip.C63_lengths_inverted",
    "Clip.C63_plot_area"
   ],
   "note": "False of the code for horizontal errorbars (slanted), y grid lines and labels (mirrored), polygon holes (not scaled), vectors without direction (undefined): these are proved as violations. Holds for the other elements."
  },
  {
   "property": "C64",
   "status": "proved",
   "theorems": [
    "Clip.C64_numeric",
    "Clip.C64_categorical"
   ],
   "note": "What counts as a number is C60."
  },
  {
   "property": "C65",
   "status": "proved",
   "theorems": [
    "Clip.C65_cycle",
    "Clip.C63_points_partial",
    "Clip.C63_bars_vertical",
    "Clip.C63_rectangles",
    "Clip.C63_vectors_partial"
   ],
   "note": ""
  },
  {
   "property": "C66",
   "status": "partial",
   "theorems": [
    "Clip.C66_named_shapes",
    "Clip.C66_unknown_shape",
    "Clip.C66_circles",
    "Clip.C66_shape_lists_refused",
    "Clip.C66_triangles_confused",
    "Clip.C66_looks_partial"
   ],
   "note": "Violations: lists of shapes are never accepted; triangle-left-o looks like triangle-top-o."
  },
  {
   "property": "C26",
   "status": "partial",
   "theorems": [
    "Clip.C26_inch",
    "Clip.C26_points_invertible",
    "Clip.C26_normalize_idempotent",
    "Clip.C26_normalize_values",
    "Clip.C26_typographic",
    "Clip.C26_user_chain",
    "Clip.C26_layer_size",
    "Clip.C26_mm_not_normalized",
    "Clip.C26_mm_font_ignored",
    "Clip.C26_other_sizes_zero",
    "Clip.C26_parse",
    "Clip.C26_parse_no_number",
    "Clip.C26_measure_or"
   ],
   "note": "Conversions proved for pt/in/em/user/percent; the code violates the full claim: millimetres are never normalised by the converters that are given them, a rem with a millimetre font is ignored, and figure sizes in percent/em are accepted but give size 0 (separate theorems)."
  },
  {
   "property": "C67",
   "status": "proved",
   "theorems": [
    "Clip.C67_paper_sizes",
    "Clip.C67_named_size",
    "Clip.C67_default",
    "Clip.C67_explicit_size"
   ],
   "note": ""
  },
  {
   "property": "C68",
   "status": "proved",
   "theorems": [
    "Clip.C68_size_units",
    "Clip.C68_percent",
    "Clip.C68_refused",
    "Clip.C68_units",
    "Clip.C68_size_map"
   ],
   "note": ""
  },
  {
   "property": "C43",
   "status": "proved",
   "theorems": [
    "Clip.C43_custom_cycle",
    "Clip.C43_custom_empty",
    "Clip.C43_custom_inline",
    "Clip.C43_custom_csv"
   ],
   "note": ""
  },
  {
   "property": "C69",
   "status": "partial",
   "theorems": [
    "Clip.C69_fixed",
    "Clip.C69_integer",
    "Clip.C69_scientific",
    "Clip.C69_zero",
    "Clip.C69_no_number",
    "Clip.C69_base_partial",
    "Clip.C69_scientific_small",
    "Clip.C69_base_truncates",
    "Clip.C69_tiny_ticks",
    "Clip.C69_fixed_tie",
    "Clip.C69_datetime",
    "Clip.C69_datetime_undefined",
    "Clip.C69_base_rounding"
   ],
   "note": "The base format only writes the value if it is a power of the base (C69_base_truncates: all values between two powers get the same label); scientific is not normalised below 1; tick values pass through six-decimal texts (C69_tiny_ticks)."
  },
  {
   "property": "C70",
   "status": "proved",
   "theorems": [
    "Clip.C70_words",
    "Clip.C70_arguments",
    "Clip.C70_refused",
    "Clip.C70_bad_arguments",
    "Clip.C70_effect"
   ],
   "note": ""
  },
  {
   "property": "C27",
   "status": "partial",
   "theorems": [
    "Clip.C27_parse",
    "Clip.C27_parse_alpha",
    "Clip.C27_parse_short",
    "Clip.C27_round_trip",
    "Clip.C27_round_trip_alpha",
    "Clip.C27_extremes",
    "Clip.C27_refused_partial",
    "Clip.C27_nonhex_throws",
    "Clip.C27_nonhex_accepted",
    "Clip.C27_negative",
    "Clip.C27_is_black"
   ],
   "note": "All well-formed hex colours proved (parse, print, round trip, exact single precision arithmetic). Refusal of malformed text is violated by the code: std::stoi throws (escaping exception) or accepts a non-hexadecimal second digit."
  },
  {
   "property": "C28",
   "status": "partial",
   "theorems": [
    "Clip.C28_steps",
    "Clip.C28_gradient_stops",
    "Clip.C28_gradient_between",
    "Clip.C28_gradient_below",
    "Clip.C28_clamp",
    "Clip.C28_invalid",
    "Clip.C28_gradient_above"
   ],
   "note": "Step maps fully; gradients at and between stops and below the first. Above the last stop the code dereferences the end iterator (C28_gradient_above)."
  },
  {
   "property": "C71",
   "status": "partial",
   "theorems": [
    "Clip.C71_index",
    "Clip.C71_lists",
    "Clip.C71_map_read",
    "Clip.C71_map_refused",
    "Clip.C71_palettes",
    "Clip.C71_data_index",
    "Clip.C71_bad_index"
   ],
   "note": "Violations: numbers read from data are shifted by one; colour 0 is accepted and gives an arbitrary colour; empty or huge numbers throw."
  },
  {
   "property": "C32",
   "status": "partial",
   "theorems": [
    "Clip.C32_permutation",
    "Clip.C32_order",
    "Clip.C32_uniform",
    "Clip.C32_empty_undefined"
   ],
   "note": "proved for every non-empty list of levels; violated for an empty line: std::max_element over no levels is dereferenced (undefined). The read of bidi_levels[size()] before the bound check is not modelled."
  },
  {
   "property": "C72",
   "status": "proved",
   "theorems": [
    "Clip.C72_ltr",
    "Clip.C72_rtl",
    "Clip.C72_height",
    "Clip.C72_no_overlap",
    "Clip.C72_error"
   ],
   "note": "exact real arithmetic; shaper is a parameter"
  },
  {
   "property": "C33",
   "status": "partial",
   "theorems": [
    "Clip.C33_body",
    "Clip.C33_attr_partial",
    "Clip.C33_attr_quote",
    "Clip.C33_attr_raw"
   ],
   "note": "text bodies: proved for every text. Attribute values: proved for values without \", < and &; the code violates the statement for the others (writes \\\" and leaves & and < raw). The attribute bug is only reachable through svg_add_text_elem_native, which nothing calls at this commit."
  },
  {
   "property": "C34",
   "status": "partial",
   "theorems": [
    "Clip.C34_document",
    "Clip.C34_defined",
    "Clip.C34_flip",
    "Clip.C34_large_undefined",
    "Clip.C34_improper_color"
   ],
   "note": "for colours with components in [0,1] and numbers below 2^30; outside, the code prints invalid colours or has undefined conversions (proved as violations)"
  },
  {
   "property": "C73",
   "status": "proved",
   "theorems": [
    "Clip.C73_draw_shape",
    "Clip.C73_draw_shape_onto"
   ],
   "note": "composed with C34 through the specification's paints"
  },
  {
   "property": "C35",
   "status": "partial",
   "theorems": [
    "Clip.C35_history",
    "Clip.C35_reads",
    "Clip.C35_truncate",
    "Clip.C35_move",
    "Clip.C35_self_assign",
    "Clip.C35_copy_mark",
    "Clip.C35_mark",
    "Clip.C35_sized"
   ],
   "note": "allocation always succeeds, unbounded sizes; violated by the code: self-assignment loses the bytes, the copy constructor leaves the mark uninitialised"
  },
  {
   "property": "C36",
   "status": "partial",
   "theorems": [
    "Clip.C36_write_other",
    "Clip.C36_read_back_partial",
    "Clip.C36_bright_negative",
    "Clip.C36_write_back",
    "Clip.C36_clear",
    "Clip.C36_rgb",
    "Clip.C36_convert"
   ],
   "note": "violated by the code: channels of 128/255 and more are read back negative (signed char); RGB images can neither be written nor read pixel-wise"
  },
  {
   "property": "C45",
   "status": "proved",
   "theorems": [
    "Clip.C45_parse",
    "Clip.C45_unknown",
    "Clip.C45_missing_value",
    "Clip.C45_switch_value",
    "Clip.C45_values"
   ],
   "note": "relative to a model of getopt_long written from its documentation; short names with a special meaning to getopt are excluded"
  },
  {
   "property": "C74",
   "status": "partial",
   "theorems": [
    "Clip.C74_failure_no_output",
    "Clip.C74_export_svg",
    "Clip.C74_errors",
    "Clip.C74_png_empty",
    "Clip.C74_usage",
    "Clip.C74_options",
    "Clip.C74_version",
    "Clip.C74_help",
    "Clip.C74_check_only",
    "Clip.C74_invalid"
   ],
   "note": "violated by the code: PNG export writes an empty file and reports success"
  },
  {
   "property": "C75",
   "status": "partial",
   "theorems": [
    "Clip.C75_crash",
    "Clip.C75_not_atomic"
   ],
   "note": "violated by the code: exporting is not atomic"
  },
  {
   "property": "C76",
   "status": "partial",
   "theorems": [
    "Clip.C76_inspect_partial",
    "Clip.C76_inspect_strings"
   ],
   "note": "Violated by the code: quotes are not printed, so quoted strings come back as bare words (exactly characterised); expressions made of words read back exactly."
  },
  {
   "property": "C77",
   "status": "partial",
   "theorems": [
    "Clip.C77_params_partial",
    "Clip.C77_stops_at_bare",
    "Clip.C77_malformed"
   ],
   "note": "Violated by the code: the walk ends silently after the first parameter without arguments (proved)."
  },
  {
   "property": "C78",
   "status": "proved",
   "theorems": [
    "Clip.C78_fill",
    "Clip.C78_stroke",
    "Clip.C78_refused"
   ],
   "note": "relative to the number reader (std::stod) as a parameter, for a palette that is not empty"
  },
  {
   "property": "C79",
   "status": "partial",
   "theorems": [
    "Clip.C79_fill_partial",
    "Clip.C79_stroke_partial",
    "Clip.C79_hatch_stays",
    "Clip.C79_none_sticks",
    "Clip.C79_mm_wrong",
    "Clip.C79_fill_refused"
   ],
   "note": "exact meaning proved with the code's own length of a millimetre; violated by the code: a colour after a hatch does not replace the hatch, solid or dash after none stay invisible, and millimetres are converted with the wrong factor"
  },
  {
   "property": "C80",
   "status": "proved",
   "theorems": [
    "Clip.C80_switch",
    "Clip.C80_enum",
    "Clip.C80_pair",
    "Clip.C80_vec2"
   ],
   "note": "relative to the number reader (std::stod) as a parameter"
  },
  {
   "property": "C81",
   "status": "proved",
   "theorems": [
    "Clip.C81_rectangle",
    "Clip.C81_refused",
    "Clip.C81_module"
   ],
   "note": "exact real geometry; text and rectangle commands are all commands of the module at this commit"
  },
  {
   "property": "C82",
   "status": "partial",
   "theorems": [
    "Clip.C82_draw",
    "Clip.C82_text",
    "Clip.C82_unique",
    "Clip.C82_frame",
    "Clip.C82_empty_undefined"
   ],
   "note": "fribidi levels, harfbuzz shaping and FreeType outlines are parameters; violated by the code: an empty text is undefined behaviour, and a failing glyph leaves the glyphs before it on the page"
  },
  {
   "property": "C83",
   "status": "proved",
   "theorems": [
    "Clip.C83_rotated"
   ],
   "note": "for texts that are not empty (the empty text is C82_empty_undefined)"
  },
  {
   "property": "C84",
   "status": "proved",
   "theorems": [
    "Clip.C84_fallback"
   ],
   "note": "the shaper of one font is a parameter"
  },
  {
   "property": "C85",
   "status": "partial",
   "theorems": [
    "Clip.C85_runs",
    "Clip.C85_unique"
   ],
   "note": "for one level per character; violated by the code on the empty line (undefined)"
  },
  {
   "property": "C86",
   "status": "proved",
   "theorems": [
    "Clip.C86_settings"
   ],
   "note": "sizes and font sizes accept units (em, %, none) that have no meaning there and then become zero: C26_other_sizes_zero"
  },
  {
   "property": "C87",
   "status": "partial",
   "theorems": [
    "Clip.C87_document_partial",
    "Clip.C87_svg_partial"
   ],
   "note": "settings after the first drawing command are not supported by the code (C44_eval_order_fails), colours outside 0..1 are not exported correctly, so the styles must be proper; the plot module is a parameter"
  },
  {
   "property": "C88",
   "status": "proved",
   "theorems": [
    "Clip.C88_adds",
    "Clip.C88_refused"
   ],
   "note": ""
  },
  {
   "property": "C90",
   "status": "partial",
   "theorems": [
    "Clip.C90_lines",
    "Clip.C90_points",
    "Clip.C90_bars",
    "Clip.C90_areas",
    "Clip.C90_errorbars",
    "Clip.C90_rectangles",
    "Clip.C90_vectors",
    "Clip.C90_labels",
    "Clip.C90_polygons",
    "Clip.C90_grid",
    "Clip.C90_background",
    "Clip.C90_unknown",
    "Clip.C90_inline_lengths",
    "Clip.C90_axes",
    "Clip.C90_axis_partial",
    "Clip.C90_axis_unknown",
    "Clip.C90_axis_empty",
    "Clip.C90_axes_tick_placement",
    "Clip.C90_legend_item",
    "Clip.C90_legend"
   ],
   "note": "The options of all elements, the axes and the legend are proved; partial because widths and offsets of bars given as a list are always refused (C90_inline_lengths), `axes` refuses tick-placement-x and -y (C90_axes_tick_placement), and `axis` ignores unknown options and throws without options (C90_axis_unknown, C90_axis_empty)."
  },
  {
   "property": "C89",
   "status": "partial",
   "theorems": [
    "Clip.C89_limits",
    "Clip.C89_same_limits",
    "Clip.C89_inside",
    "Clip.C89_automatic",
    "Clip.C89_lines",
    "Clip.C89_areas",
    "Clip.C89_rectangle_outside"
   ],
   "note": "The limits are exactly least and greatest of all data (rectangle sizes, vector directions and polygon holes are not counted by the code, so rectangles can leave the plot area: C89_rectangle_outside; labels and markers of lines are not considered). Exact arithmetic: with float limits see C23_float_limit_outside."
  },
  {
   "property": "C91",
   "status": "partial",
   "theorems": [
    "Clip.C91_axis_partial",
    "Clip.C91_axes",
    "Clip.C91_values_partial",
    "Clip.C91_values_default",
    "Clip.C91_values_categories",
    "Clip.C91_duplicate_category",
    "Clip.C91_title_extent",
    "Clip.C91_axis"
   ],
   "note": "C91_axis_partial is an equivalence for all axes except titles of axes with `align` x or y, which the code places by the wrong dimension of the text (C91_title_extent). C91_values_partial covers all placements but exponential-steps and subdivide on logarithmic scales, where the code prints other values (C24_exp_steps_labels, C24_subdivide_log_fails); duplicated categories are labelled where no data go (C91_duplicate_category). Measures such as 1em for paddings count as 1px (not converted)."
  },
  {
   "property": "C92",
   "status": "partial",
   "theorems": [
    "Clip.C92_scale",
    "Clip.C92_placement",
    "Clip.C92_list_forms_refused",
    "Clip.C92_placement_list_forms_refused",
    "Clip.C92_inverted_categorical",
    "Clip.C92_inverted_stays",
    "Clip.C92_padding_stays",
    "Clip.C92_stale_category"
   ],
   "note": "The accepted settings and their effects are characterised exactly (C92_scale, C92_placement). Violated by the code: the documented list forms (linear), (log), (inverted), (categorical) are refused, inverted has no effect on categorical scales and is never undone, linear after categorical keeps the wider limits, categories of an earlier list stay accepted."
  },
  {
   "property": "C93",
   "status": "proved",
   "theorems": [
    "Clip.C93_lines",
    "Clip.C93_points",
    "Clip.C93_bars",
    "Clip.C93_areas",
    "Clip.C93_errorbars",
    "Clip.C93_rectangles",
    "Clip.C93_vectors",
    "Clip.C93_labels",
    "Clip.C93_polygons",
    "Clip.C93_grid",
    "Clip.C93_background",
    "Clip.C93_legend_item",
    "Clip.C93_legend",
    "Clip.C93_axes",
    "Clip.C93_axis"
   ],
   "note": "the defaults are written out in Spec/Defaults.lean; the single axis command starts from a fresh linear scale, not from that of the plot (C93_axis)"
  },
  {
   "property": "C94",
   "status": "proved",
   "theorems": [
    "Clip.C94_lines",
    "Clip.C94_points",
    "Clip.C94_bars",
    "Clip.C94_areas",
    "Clip.C94_errorbars",
    "Clip.C94_rectangles",
    "Clip.C94_vectors",
    "Clip.C94_labels",
    "Clip.C94_polygons",
    "Clip.C94_grid",
    "Clip.C94_background"
   ],
   "note": "Equivalences: the command succeeds with this result iff the picture is the specified one. Spec/ElementPictures.lean; includes the violations (labels and grid upside down, slanted error bars, unscaled holes)."
  },
  {
   "property": "C95",
   "status": "partial",
   "theorems": [
    "Clip.C95_legend",
    "Clip.C95_rows",
    "Clip.C95_flow",
    "Clip.C95_apart_partial",
    "Clip.C95_frame",
    "Clip.C95_inside_partial",
    "Clip.C95_width_partial",
    "Clip.C95_wide_first"
   ],
   "note": "C95_legend: a legend command succeeds exactly when it draws the picture of Spec/LegendPicture (and changes nothing else), for all settings. The layout loops are exactly the stacked and the flowing layout of the specification (C95_rows, C95_flow; the breaking into rows is unique). Partial: items are apart and inside only for sizes and distances that are not negative and if the frame is not cut to the plot area; a first item that is too wide begins below an empty row (C95_wide_first); the marker does not count for the size of an item; the border called top is drawn along the lower edge and that called bottom along the upper edge, and both are always solid"
  },
  {
   "property": "C96",
   "status": "proved",
   "theorems": [
    "Clip.C96_background",
    "Clip.C96_lines",
    "Clip.C96_points",
    "Clip.C96_labels",
    "Clip.C96_bars",
    "Clip.C96_areas",
    "Clip.C96_errorbars",
    "Clip.C96_rectangles",
    "Clip.C96_vectors",
    "Clip.C96_grid",
    "Clip.C96_legend",
    "Clip.C96_axes",
    "Clip.C96_axis",
    "Clip.C96_polygons"
   ],
   "note": "the deviations of the pictures from what one would expect are part of the specification (mirrored grid lines C63, clamped base lines etc.), see the notes of C94, C91 and C95"
  },
  {
   "property": "C97",
   "status": "proved",
   "theorems": [
    "Clip.C97_plot",
    "Clip.C97_area",
    "Clip.C97_adds"
   ],
   "note": "real arithmetic in place of doubles"
  },
  {
   "property": "C98",
   "status": "partial",
   "theorems": [
    "Clip.C98_text",
    "Clip.C98_page",
    "Clip.C98_svg_partial"
   ],
   "note": "C98_text is the full statement for pictures; C98_svg_partial needs colours in 0..1, which the code does not check (C87); real arithmetic in place of doubles"
  },
  {
   "property": "C99",
   "status": "proved",
   "theorems": [
    "Clip.C99_font",
    "Clip.C99_program"
   ],
   "note": "fontconfig and FreeType are parameters; the input text to picture relation is that of C98"
  },
  {
   "property": "C100",
   "status": "proved",
   "theorems": [
    "Clip.C100_outline",
    "Clip.C100_closed",
    "Clip.C100_extent",
    "Clip.C100_accepts",
    "Clip.C100_truncates"
   ],
   "note": "the calls of FreeType that load the glyph are not modelled; coordinates are exact. Malformed contours: C100_truncates, C100_accepts (abort)"
  },
  {
   "property": "C101",
   "status": "partial",
   "theorems": [
    "Clip.C101_eval_ignored",
    "Clip.C101_format",
    "Clip.C101_state"
   ],
   "note": "Violated by the code (proved for every history): clip_eval evaluates nothing. What the error message and the format setting do is proved exactly."
  },
  {
   "property": "C102",
   "status": "partial",
   "theorems": [
    "Clip.C102_export_partial",
    "Clip.C102_unique",
    "Clip.C102_hangs_iff",
    "Clip.C102_bar_hangs"
   ],
   "note": "Hypotheses of the positive theorem: numbers below 2^29 (beyond, C34's undefined conversions) and no hatched shape with an edge of length zero; when it hangs is proved exactly (C102_hangs_iff), and that it happens for a hatched bar at the base line. With exactly one such edge the document contains coordinates that are not numbers (C62_nan_vertex)."
  },
  {
   "property": "C103",
   "status": "partial",
   "theorems": [
    "Clip.C103_documented",
    "Clip.C103_documented_partial",
    "Clip.C103_points_shapes",
    "Clip.C103_rectangles_sizes",
    "Clip.C103_axes_refused",
    "Clip.C103_legend_extra",
    "Clip.C103_document_ignored",
    "Clip.C103_parentheses",
    "Clip.C103_command_line"
   ],
   "note": "Proved for lines, bars, areas, errorbars, vectors, labels and grid; for points, rectangles, axis, axes and legend without the documented options the code refuses, which is proved as well; most options of documents and of the command line are ignored or refused (proved)."
  },
  {
   "property": "C104",
   "status": "proved",
   "theorems": [
    "Clip.C104_positions",
    "Clip.C104_limits",
    "Clip.C104_points",
    "Clip.C104_plot",
    "Clip.C104_plot_vertical"
   ],
   "note": "Positions on any linear scale and automatic limits for every a > 0 (positions: a \u2260 0); the whole plot for plots without axes, grids and polygons (axes show the numbers, so they do change), given that the scale gets its limits from options or data (C104_plot, C104_plot_vertical). On logarithmic scales the statement is false for b \u2260 0 and is not claimed."
  },
  {
   "property": "C105",
   "status": "proved",
   "theorems": [
    "Clip.C105_swap",
    "Clip.C105_order",
    "Clip.C105_leave_out"
   ],
   "note": "For all elements except polygons, whose automatic limits are changed in both readings, and the commands that set something (axes, margins, scales, limits)."
  },
  {
   "property": "C107",
   "status": "partial",
   "theorems": [
    "Clip.C107_number",
    "Clip.C107_extent",
    "Clip.C107_size",
    "Clip.C107_position_x",
    "Clip.C107_position_y",
    "Clip.C107_measure",
    "Clip.C107_hash_color",
    "Clip.C107_color",
    "Clip.C107_column",
    "Clip.C107_texts",
    "Clip.C107_data",
    "Clip.C107_marker_partial",
    "Clip.C107_markers",
    "Clip.C107_color_map",
    "Clip.C107_size_map",
    "Clip.C107_data_size",
    "Clip.C107_mapped_size",
    "Clip.C107_data_color",
    "Clip.C107_format"
   ],
   "note": "Exact acceptance and value for every kind of argument.  Violated by the code and therefore partial: lists of markers are never accepted, `triangle-left-o` is another triangle, millimetres in a size map are taken for pixels and percentages for zero, units of sizes in the data are dropped, `#` colours accept a sign or a blank."
  },
  {
   "property": "C106",
   "status": "proved",
   "theorems": [
    "Clip.C106_leave_out",
    "Clip.C106_combine"
   ],
   "note": "For every element of the plot module; commands that set something (axes, margins, scales, limits) are not left out."
  },
  {
   "property": "C108",
   "status": "partial",
   "theorems": [
    "Clip.C108_image",
    "Clip.C108_image_partial",
    "Clip.C108_short",
    "Clip.C108_curves",
    "Clip.C108_fraction",
    "Clip.C108_background_only",
    "Clip.C108_text",
    "Clip.C108_text_size",
    "Clip.C108_transform_stays"
   ],
   "note": "C108_image is the exact behaviour for all pages and drawings. Violated by the code: curves are left out, heights are rounded down, a shape with one path command makes everything fail, the styles of shapes drawn by the program are not looked at (only the background is painted), texts have the wrong size except at 72 dpi, and their transformation stays in force. The command line program does not call this function at this commit. cairo is represented by the documented meaning of its calls, not by pixels."
  },
  {
   "property": "C109",
   "status": "partial",
   "theorems": [
    "Clip.C109_history_partial",
    "Clip.C109_no_leak",
    "Clip.C109_observe",
    "Clip.C109_self_assignment",
    "Clip.C109_throw"
   ],
   "note": "Proved for all histories without self-assignment of a full option and without exceptions; for these the code is wrong, which is proved."
  },
  {
   "property": "C110",
   "status": "partial",
   "theorems": [
    "Clip.C110_safe",
    "Clip.C110_succeeds_partial",
    "Clip.C110_trailing_slash",
    "Clip.C110_exists"
   ],
   "note": "Proved for all paths that do not end in a slash; for these the code reports a failure (proved)."
  },
  {
   "property": "C111",
   "status": "proved",
   "theorems": [
    "Clip.C111_metric",
    "Clip.C111_zero",
    "Clip.C111_plain"
   ],
   "note": "For numbers of at least a million millionth; below, the text is 0.0p."
  },
  {
   "property": "C112",
   "status": "partial",
   "theorems": [
    "Clip.C112_string",
    "Clip.C112_long_print",
    "Clip.C112_grows",
    "Clip.C112_file_partial",
    "Clip.C112_short_write",
    "Clip.C112_error",
    "Clip.C112_close",
    "Clip.C112_descriptor_zero",
    "Clip.C112_standard",
    "Clip.C112_open",
    "Clip.C112_print_error"
   ],
   "note": "Proved for string and buffer streams and for files the system writes whole; short writes, long printed texts and descriptor 0 are violated by the code."
  },
  {
   "property": "C113",
   "status": "partial",
   "theorems": [
    "Clip.C113_layouts",
    "Clip.C113_category_layouts",
    "Clip.C113_formats",
    "Clip.C113_scale_types",
    "Clip.C113_scale_types_refused",
    "Clip.C113_color_map",
    "Clip.C113_color_map_refused",
    "Clip.C113_units"
   ],
   "note": "Violated by the code (proved): category layouts and scale types without an argument are refused in the manual's parentheses, colour maps are refused with a pair of parentheses for each stop, and percentages are refused as lengths."
  },
  {
   "property": "C114",
   "status": "proved",
   "theorems": [
    "Clip.C114_plot",
    "Clip.C114_document"
   ],
   "note": "For the elements of plots and drawings (rectangle, text), and for the items of legends."
  },
  {
   "property": "C115",
   "status": "proved",
   "theorems": [
    "Clip.C115_blanks",
    "Clip.C115_writing",
    "Clip.C115_plain"
   ],
   "note": "Adding a comma can make a text refused (a comma before a name), so C115_writing speaks of accepted texts."
  },
  {
   "property": "C116",
   "status": "partial",
   "theorems": [
    "Clip.C116_labels",
    "Clip.C116_title",
    "Clip.C116_axis",
    "Clip.C116_axes",
    "Clip.C116_defaults",
    "Clip.C116_turned_label"
   ],
   "note": "proved for unturned labels; violated for turned labels (C116_turned_label); the position along the axis is not restricted (end labels overhang)"
  },
  {
   "property": "C117",
   "status": "partial",
   "theorems": [
    "Clip.C117_refused",
    "Clip.C117_illegal",
    "Clip.C117_opened",
    "Clip.C117_write",
    "Clip.C117_read",
    "Clip.C117_seek",
    "Clip.C117_size",
    "Clip.C117_truncate",
    "Clip.C117_writes",
    "Clip.C117_reads",
    "Clip.C117_write_whole",
    "Clip.C117_closed",
    "Clip.C117_read_whole_partial",
    "Clip.C117_short_read",
    "Clip.C117_round_trip",
    "Clip.C117_append_ignored",
    "Clip.C117_failed_write"
   ],
   "note": "whole reads are right only if the system reads everything at once (violated otherwise: C117_short_read); O_APPEND is ignored (C117_append_ignored); a failed write loses the old contents (C117_failed_write)"
  },
  {
   "property": "C118",
   "status": "proved",
   "theorems": [
    "Clip.C118_descriptors",
    "Clip.C118_no_leak"
   ],
   "note": ""
  },
  {
   "property": "C119",
   "status": "proved",
   "theorems": [
    "Clip.C119_instant",
    "Clip.C119_label",
    "Clip.C119_default",
    "Clip.C119_iso",
    "Clip.C119_order"
   ],
   "note": "strftime enters by its documented meaning for the calendar fields (hypothesis Standard, met by exStrftime_standard)"
  },
  {
   "property": "C120",
   "status": "partial",
   "theorems": [
    "Clip.C120_kinds",
    "Clip.C120_ticks",
    "Clip.C120_formats",
    "Clip.C120_sizes",
    "Clip.C120_units",
    "Clip.C120_color_maps",
    "Clip.C120_size_maps",
    "Clip.C120_line_files",
    "Clip.C120_point_files_fails",
    "Clip.C120_stroke_partial",
    "Clip.C120_stroke_fails",
    "Clip.C120_switch"
   ],
   "note": "violated by two messages: that for the data of points names csv, which is refused (C120_point_files_fails), and that for line styles does not name dash and dashed (C120_stroke_fails)"
  },
  {
   "property": "C121",
   "status": "partial",
   "theorems": [
    "Clip.C121_listing",
    "Clip.C121_refused",
    "Clip.C121_size",
    "Clip.C121_hidden_lost",
    "Clip.C121_root_undefined",
    "Clip.C121_is_directory"
   ],
   "note": "violated by the code: files behind hidden names do not count (C121_hidden_lost), and the size of / is undefined (C121_root_undefined)"
  },
  {
   "property": "C122",
   "status": "proved",
   "theorems": [
    "Clip.C122_plot",
    "Clip.C122_document",
    "Clip.C122_short_colors",
    "Clip.C122_units",
    "Clip.C122_sources",
    "Clip.C122_solid",
    "Clip.C122_draw_units"
   ],
   "note": "the settings of the page are left as they are; lists of labels, colours and sizes are not included (there a file appends to what was given before)"
  },
  {
   "property": "C123",
   "status": "partial",
   "theorems": [
    "Clip.C123_read_back",
    "Clip.C123_default",
    "Clip.C123_rest_ignored",
    "Clip.C123_lacking_undefined",
    "Clip.C123_length_ignored",
    "Clip.C123_no_such_day",
    "Clip.C123_blanks",
    "Clip.C123_leading_blanks"
   ],
   "note": "violated by the code: a format that leaves a part out is undefined (C123_lacking_undefined), the length is ignored (C123_length_ignored), 30 February is accepted (C123_no_such_day); strftime and strptime enter by their documented meaning"
  },
  {
   "property": "C124",
   "status": "partial",
   "theorems": [
    "Clip.C124_hex",
    "Clip.C124_distinct",
    "Clip.C124_alphanumeric",
    "Clip.C124_all_texts",
    "Clip.C124_zero_aborts"
   ],
   "note": "violated by the code: an assertion refuses the word zero (C124_zero_aborts)"
  },
  {
   "property": "C125",
   "status": "proved",
   "theorems": [
    "Clip.C125_units",
    "Clip.C125_order",
    "Clip.C125_monotonic",
    "Clip.C125_days",
    "Clip.C125_whole_days"
   ],
   "note": "the clocks of the system are the input"
  },
  {
   "property": "C126",
   "status": "partial",
   "theorems": [
    "Clip.C126_rows",
    "Clip.C126_pixel",
    "Clip.C126_unopened_undefined",
    "Clip.C126_blank_garbage"
   ],
   "note": "violated by the code: the result of fopen is not checked (C126_unopened_undefined); what is handed to libpng is modelled, libpng is not"
  },
  {
   "property": "C127",
   "status": "partial",
   "theorems": [
    "Clip.C127_plot_partial",
    "Clip.C127_refused_partial",
    "Clip.C127_document_partial",
    "Clip.C127_ticks",
    "Clip.C127_drawing",
    "Clip.C127_drawing_document"
   ],
   "note": "violated by the code where a unit is dropped: tick-length, paddings, widths and patterns given with a unit are numbers of pixels (C127_ticks); missing: plots with these options, and polygons with holes, whose corners the code neither scales nor moves (for drawings nothing is missing); fonts are assumed to scale with the resolution"
  },
  {
   "property": "C128",
   "status": "partial",
   "theorems": [
    "Clip.C128_rm",
    "Clip.C128_rm_silent",
    "Clip.C128_mv_iff",
    "Clip.C128_mv",
    "Clip.C128_truncate_iff",
    "Clip.C128_truncate",
    "Clip.C128_replace"
   ],
   "note": "Violated by the code: FileUtil::rm does not look at the result of unlink, so failure is not reported (C128_rm_silent). Everything else is proved. Names are not resolved through directories, and the calls of the system follow POSIX (trusted)."
  }
 ]
}