C01 | proved | C01_sexpr_roundtrip | all printable expression chains
C02 | proved | C02_sexpr_balanced | lexically valid documents
C03 | proved | C03_sexpr_layout_irrelevant |
C04 | partial | C04_sexpr_termination_fails, C04_sexpr_diverges_iff, C04_sexpr_terminates_partial | The code violates the property: a backslash outside a string loops forever. Negation proved with witness, exact characterisation of the diverging inputs proved.
C05 | proved | C05_clone |
C06 | proved | C06_plist_roundtrip, C06_plist_accepts |
C07 | proved | C07_plist_terminates |
C46 | partial | C46_plist_unclosed_paren_accepted, C46_plist_accepts_iff_partial | Violated by the code: a missing ')' before ';' is accepted (result of expectAndConsumeToken ignored). Witness proved; exact acceptance characterised.
C47 | proved | C47_plist_unterminated_string |
C08 | proved | C08_strict_dispatch |
C09 | partial | C09_passthrough_fails, C09_passthrough_exact, C09_passthrough_partial | Violated by the code: an unknown command is handed on together with everything after it. Counterexample, exact left-overs, and the positive case (all settings first) proved.
C40 | proved | C40_first_error_wins, C40_success_iff |
C44 | partial | C44_eval_module_partial, C44_eval_unknown_module, C44_eval_order_fails | Holds when settings precede the module commands; with another order later settings are executed and handed to the module again (proved counterexample).
C48 | partial | C48_plot_unknown_ignored, C48_draw_unknown_partial, C48_text_ignored | Violated for plots (proved: the unknown command is ignored, also for whole texts); holds for the draw module.
C49 | proved | C49_plot_two_phases, C49_plot_prepare_error |
C10 | partial | C10_csv_roundtrip, C10_csv_any_writing_partial, C10_csv_trailing_empty_lost | Round trip proved for every writer that terminates the last line (and for unterminated last lines not ending in an empty bare field). RFC 4180 allows omitting the last line break; then the code loses an empty last field (proved).
C11 | proved | C11_csv_total, C11_csv_accepts_iff, C11_csv_unterminated, C11_csv_stray, C11_csv_lone_cr |
C12 | partial | C12_extract_column, C12_extract_missing, C12_extract_short_row_partial, C12_extract_off_by_one | Violated by the code: off-by-one in the row length check, a row exactly one entry too short throws instead of being reported (proved).
C13 | proved | C13_series_group, C13_partition |
C50 | proved | C50_databuf |
C51 | partial | C51_inline_list, C51_csv_arguments, C51_csv_column, C51_inline_other_list | Violated for lists with another head: they load as one empty value (proved).
C52 | proved | C52_format, C52_polylines_csv |
C53 | partial | C53_points_csv_refused, C53_points_inline_partial | Violated: CSV for points is always refused (proved); inline data works (proved).
C54 | proved | C54_geojson_lines |
C14 | proved | C14_utf8_roundtrip, C14_long_forms_fail | All code points below 2^21 (a superset of Unicode). C14_long_forms_fail documents two defects of the five/six-byte forms outside Unicode.
C15 | proved | C15_utf32_roundtrip, C15_count, C15_utf8_roundtrip | Texts without U+0000 (the code uses 0 as end marker).
C16 | partial | C16_accepts_wellformed_partial, C16_truncated_refused, C16_continuation_unchecked, C16_ascii_first_accepted, C16_accepts_malformed, C16_diverges | Violated by the code in both directions (accepts garbage after ASCII; endless loop on stray continuation bytes), both proved. Completeness half proved.
C55 | partial | C55_utf16_bmp_partial, C55_utf16_truncates | Violated outside the BMP (proved), holds inside (proved).
C17 | proved | C17_civil_to_unix, C17_every_date, C17_order | Stamps that fit 64 bits, i.e. all valid times until the year 9999 and far beyond.
C18 | partial | C18_iso8601_exact, C18_iso8601_roundtrip_partial, C18_iso8601_date, C18_no_such_day_accepted, C18_hour_24_accepted, C18_trailing_text_accepted, C18_short_input_undefined, C18_accepts_iff, C18_undefined_iff, C18_refuses_iff, C18_one_meaning | Violated by the code: the day is checked against the length of month number <day>, so 30/31 February are accepted (proved for every year). Every valid time is read back exactly (proved); the exact accepted set is C18_iso8601_exact.
C19 | proved | C19_add_sub, C19_diff, C19_units, C19_from, C19_nanoseconds, C19_from_exact |
C56 | partial | C56_inspect_parts, C56_inspect_text_partial, C56_inspect_years_fails | Violated from one year on: the blank behind the years is missing.
C38 | partial | C38_json_string_partial, C38_json_escapes_kept, C38_json_unterminated_loops | Violated by the code: escapes are never decoded (the raw text is returned, proved for all strings), and an unterminated string never returns (proved). Strings without escapes are exact.
C39 | partial | C39_geojson_document, C39_geojson_terminates, C39_line_shape, C39_point_undefined, C39_point_3d, C39_polygon_4d_corrupt, C39_multipolygon_empty_ring_undefined, C39_geometry_collection_dropped, C39_null_geometry_refused, C39_type_not_string, C39_not_object, C39_empty, C39_flat_refused, C39_multiline_dimensions, C39_delivered_before_error | Proved for documents of collections, features, multipoints, (multi)lines and (multi)polygons in two dimensions. Violated: every two-dimensional Point reads out of bounds (proved), and the other listed defects.
C57 | proved | C57_json_tokens, C57_json_skip, C57_skip_terminates, C57_skip_sound, C57_skip_iff |
C58 | proved | C58_geojson_polylines, C58_geojson_points, C58_failures | Documents without single Points (see C39).
C37 | partial | C37_split, C37_split_join, C37_split_join_char, C37_split_overlap, C37_join, C37_replace, C37_replace_gone, C37_replace_empty_recreates, C37_replace_empty_pattern, C37_prefix_suffix, C37_compare, C37_find | Proved for all texts except: multi-character delimiters that overlap a part are cut elsewhere (proved), and replacing an empty pattern never finishes (proved).
C59 | partial | C59_trim_partial, C59_trim_undefined, C59_join_paths_partial, C59_strip_bytes, C59_chomp_partial | Violated by the code: blank or empty texts are undefined behaviour (proved); holds for all others.
C60 | partial | C60_is_number, C60_decimal_accepted, C60_not_numbers_accepted, C60_strip_zeros | The accepted language is proved exactly; it contains texts without digits and lacks scientific notation.
C61 | proved | C61_hex_print, C61_strip_shell, C61_is_hex |
C20 | proved | C20_linear_any_rounding, C20_linear_exact | Linear scales map the range onto [0,1] and untranslate inverts translate; the _any_rounding theorem holds for every monotone rounding that fixes the end points.
C21 | partial | C21_log_translate, C21_log_untranslate_fails, C21_log_untranslate_max_partial, C21_log_nonpositive_min | The forward direction is proved for every base above one. The inverse is wrong in the code: C21_log_untranslate_fails is the counterexample theorem, C21_log_untranslate_max_partial what remains true.
C22 | partial | C22_categorical, C22_bounds, C22_inverted_ignored, C22_category_index, C22_fraction_ignored | Positions and bounds are proved; the `invert` option is ignored for categorical scales (C22_inverted_ignored), which contradicts the full statement.
C23 | partial | C23_fit, C23_order, C23_limits, C23_covers_partial, C23_float_limit_outside, C23_nan_sticks, C23_no_data | Exact and order independent on numbers; a rounded limit can leave a data point outside and a NaN datum sticks (both proved as counterexamples), so coverage is partial.
C24 | partial | C24_linear, C24_interval, C24_linear_inside, C24_align, C24_align_inverted_outside, C24_alignat_ticks, C24_alignat_fails, C24_alignat_multiple_partial, C24_subdivide, C24_subdivide_log_fails, C24_exponential, C24_exponential_outside, C24_exp_steps, C24_exp_steps_labels, C24_exponential_rounding | Tick values and positions of every layout are characterised; alignat, subdivide on logarithmic scales, align on inverted scales and exponential violate the documented behaviour, each with a counterexample theorem.
C25 | partial | C25_positive_step_terminates, C25_negative_step_diverges, C25_zero_step, C25_lost_step_diverges, C25_exponential_terminates, C25_exponential_diverges, C25_exponential_unbounded, C25_exp_steps | Termination for every positive step in exact arithmetic; for exponential bases above one, termination is characterised exactly (lower limit and base of the scale, including infinite and NaN exponents), and the stepped layout ends exactly where the plain one does; negative steps, steps lost to rounding, bases of at most one and negative lower limits loop for ever (proved).
C29 | proved | C29_product, C29_compose, C29_compose_points, C29_actions, C29_inverses, C29_from_deg, C29_sort, C29_mean, C29_vectors, C29_mirror | Exact arithmetic. Matrices are compared with Mathlib's matrices, rotation with multiplication by exp(-i a pi/180). Also the sorting and mean helpers of vmath.cc.
C30 | proved | C30_transform, C30_transform_compose, C30_polygon_round_trip, C30_poly2, C30_rectangle, C30_circle, C30_to_polygon, C30_add_lines, C30_flatten | Exact arithmetic. C30_circle adds that the Bezier circle is within 0.0273 % of the true circle.
C31 | partial | C31_margin_inside_partial, C31_margin_size, C31_margin_outside, C31_align, C31_rotate_bounds | Alignment and rotated bounds are proved in full. The margin box is inside only if the margins are non-negative and fit; C31_margin_outside proves the code violates the claim otherwise.
C41 | partial | C41_point_on_both, C41_parallel, C41_threshold, C41_orientation_matters, C41_zero_direction, C41_segment, C41_segments, C41_segment_complete, C41_segments_complete, C41_polygon | Exact arithmetic. Soundness, completeness and parallel lines are proved for non-zero directions; a zero direction is reported as an intersection at NaN (C41_zero_direction), and near-parallel lines are treated differently depending on the sign of the direction (C41_orientation_matters).
C62 | partial | C62_hatch_partial, C62_degenerate_diverges, C62_flat_rectangle_diverges, C62_nan_vertex, C62_stripes_partial, C62_offset_empty, C62_ends | Proved for polygons without zero-length edges; with two such edges (a rectangle of height zero) the loop is proved never to end, with one the output contains NaN vertices. Stripes: all those that cross the shape, outwards until the first distance at which none does; a large offset draws nothing (C62_offset_empty).
C42 | partial | C42_lines_partial, C42_every_point_once, C42_inside, C42_geojson, C42_surplus_labels_undefined | Exact drawing list for all data, groupings and markers; needs at most as many labels as points, because the code reads outside the data otherwise (proved as C42_surplus_labels_undefined). End to end for GeoJSON polylines.
C63 | partial | C63_points_partial, C63_bars_vertical, C63_bars_vertical_offsets, C63_bars_horizontal, C63_areas, C63_errorbars_vertical_partial, C63_errorbar_caps, C63_rectangles, C63_vectors_partial, C63_polygons_partial, C63_grid_x, C63_arrow, C63_errorbars_horizontal_slanted, C63_errorbar_degenerate, C63_vectors_missing_direction, C63_polygon_holes_unscaled, C63_grid_y_mirrored, C63_labels_mirrored, C63_bar_labels_partial, C63_lengths_partial, C63_lengths_inverted, C63_plot_area | False of the code for horizontal errorbars (slanted), y grid lines and labels (mirrored), polygon holes (not scaled), vectors without direction (undefined): these are proved as violations. Holds for the other elements.
C64 | proved | C64_numeric, C64_categorical | What counts as a number is C60.
C65 | proved | C65_cycle, C63_points_partial, C63_bars_vertical, C63_rectangles, C63_vectors_partial |
C66 | partial | C66_named_shapes, C66_unknown_shape, C66_circles, C66_shape_lists_refused, C66_triangles_confused, C66_looks_partial | Violations: lists of shapes are never accepted; triangle-left-o looks like triangle-top-o.
C26 | partial | C26_inch, C26_points_invertible, C26_normalize_idempotent, C26_normalize_values, C26_typographic, C26_user_chain, C26_layer_size, C26_mm_not_normalized, C26_mm_font_ignored, C26_other_sizes_zero, C26_parse, C26_parse_no_number, C26_measure_or | Conversions proved for pt/in/em/user/percent; the code violates the full claim: millimetres are never normalised by the converters that are given them, a rem with a millimetre font is ignored, and figure sizes in percent/em are accepted but give size 0 (separate theorems).
C67 | proved | C67_paper_sizes, C67_named_size, C67_default, C67_explicit_size | 
C68 | proved | C68_size_units, C68_percent, C68_refused, C68_units, C68_size_map |
C43 | proved | C43_custom_cycle, C43_custom_empty, C43_custom_inline, C43_custom_csv | 
C69 | partial | C69_fixed, C69_integer, C69_scientific, C69_zero, C69_no_number, C69_base_partial, C69_scientific_small, C69_base_truncates, C69_tiny_ticks, C69_fixed_tie, C69_datetime, C69_datetime_undefined, C69_base_rounding | The base format only writes the value if it is a power of the base (C69_base_truncates: all values between two powers get the same label); scientific is not normalised below 1; tick values pass through six-decimal texts (C69_tiny_ticks).
C70 | proved | C70_words, C70_arguments, C70_refused, C70_bad_arguments, C70_effect |
C27 | partial | C27_parse, C27_parse_alpha, C27_parse_short, C27_round_trip, C27_round_trip_alpha, C27_extremes, C27_refused_partial, C27_nonhex_throws, C27_nonhex_accepted, C27_negative, C27_is_black | All well-formed hex colours proved (parse, print, round trip, exact single precision arithmetic). Refusal of malformed text is violated by the code: std::stoi throws (escaping exception) or accepts a non-hexadecimal second digit.
C28 | partial | C28_steps, C28_gradient_stops, C28_gradient_between, C28_gradient_below, C28_clamp, C28_invalid, C28_gradient_above | Step maps fully; gradients at and between stops and below the first. Above the last stop the code dereferences the end iterator (C28_gradient_above).
C71 | partial | C71_index, C71_lists, C71_map_read, C71_map_refused, C71_palettes, C71_data_index, C71_bad_index | Violations: numbers read from data are shifted by one; colour 0 is accepted and gives an arbitrary colour; empty or huge numbers throw.
C32 | partial | C32_permutation, C32_order, C32_uniform, C32_empty_undefined | proved for every non-empty list of levels; violated for an empty line: std::max_element over no levels is dereferenced (undefined). The read of bidi_levels[size()] before the bound check is not modelled.
C72 | proved | C72_ltr, C72_rtl, C72_height, C72_no_overlap, C72_error | exact real arithmetic; shaper is a parameter
C33 | partial | C33_body, C33_attr_partial, C33_attr_quote, C33_attr_raw | text bodies: proved for every text. Attribute values: proved for values without ", < and &; the code violates the statement for the others (writes \" and leaves & and < raw). The attribute bug is only reachable through svg_add_text_elem_native, which nothing calls at this commit.
C34 | partial | C34_document, C34_defined, C34_flip, C34_large_undefined, C34_improper_color | for colours with components in [0,1] and numbers below 2^30; outside, the code prints invalid colours or has undefined conversions (proved as violations)
C73 | proved | C73_draw_shape, C73_draw_shape_onto | composed with C34 through the specification's paints
C35 | partial | C35_history, C35_reads, C35_truncate, C35_move, C35_self_assign, C35_copy_mark, C35_mark, C35_sized | allocation always succeeds, unbounded sizes; violated by the code: self-assignment loses the bytes, the copy constructor leaves the mark uninitialised
C36 | partial | C36_write_other, C36_read_back_partial, C36_bright_negative, C36_write_back, C36_clear, C36_rgb, C36_convert | violated by the code: channels of 128/255 and more are read back negative (signed char); RGB images can neither be written nor read pixel-wise
C45 | proved | C45_parse, C45_unknown, C45_missing_value, C45_switch_value, C45_values | relative to a model of getopt_long written from its documentation; short names with a special meaning to getopt are excluded
C74 | partial | C74_failure_no_output, C74_export_svg, C74_errors, C74_png_empty, C74_usage, C74_options, C74_version, C74_help, C74_check_only, C74_invalid | violated by the code: PNG export writes an empty file and reports success
C75 | partial | C75_crash, C75_not_atomic | violated by the code: exporting is not atomic
C76 | partial | C76_inspect_partial, C76_inspect_strings | Violated by the code: quotes are not printed, so quoted strings come back as bare words (exactly characterised); expressions made of words read back exactly.
C77 | partial | C77_params_partial, C77_stops_at_bare, C77_malformed | Violated by the code: the walk ends silently after the first parameter without arguments (proved).
C78 | proved | C78_fill, C78_stroke, C78_refused | relative to the number reader (std::stod) as a parameter, for a palette that is not empty
C79 | partial | C79_fill_partial, C79_stroke_partial, C79_hatch_stays, C79_none_sticks, C79_mm_wrong, C79_fill_refused | exact meaning proved with the code's own length of a millimetre; violated by the code: a colour after a hatch does not replace the hatch, solid or dash after none stay invisible, and millimetres are converted with the wrong factor
C80 | proved | C80_switch, C80_enum, C80_pair, C80_vec2 | relative to the number reader (std::stod) as a parameter
C81 | proved | C81_rectangle, C81_refused, C81_module | exact real geometry; text and rectangle commands are all commands of the module at this commit
C82 | partial | C82_draw, C82_text, C82_unique, C82_frame, C82_empty_undefined | fribidi levels, harfbuzz shaping and FreeType outlines are parameters; violated by the code: an empty text is undefined behaviour, and a failing glyph leaves the glyphs before it on the page
C83 | proved | C83_rotated | for texts that are not empty (the empty text is C82_empty_undefined)
C84 | proved | C84_fallback | the shaper of one font is a parameter
C85 | partial | C85_runs, C85_unique | for one level per character; violated by the code on the empty line (undefined)
C86 | proved | C86_settings | sizes and font sizes accept units (em, %, none) that have no meaning there and then become zero: C26_other_sizes_zero
C87 | partial | C87_document_partial, C87_svg_partial | settings after the first drawing command are not supported by the code (C44_eval_order_fails), colours outside 0..1 are not exported correctly, so the styles must be proper; the plot module is a parameter
C88 | proved | C88_adds, C88_refused | 
C90 | partial | C90_lines, C90_points, C90_bars, C90_areas, C90_errorbars, C90_rectangles, C90_vectors, C90_labels, C90_polygons, C90_grid, C90_background, C90_unknown, C90_inline_lengths, C90_axes, C90_axis_partial, C90_axis_unknown, C90_axis_empty, C90_axes_tick_placement, C90_legend_item, C90_legend | The options of all elements, the axes and the legend are proved; partial because widths and offsets of bars given as a list are always refused (C90_inline_lengths), `axes` refuses tick-placement-x and -y (C90_axes_tick_placement), and `axis` ignores unknown options and throws without options (C90_axis_unknown, C90_axis_empty).
C89 | partial | C89_limits, C89_same_limits, C89_inside, C89_automatic, C89_lines, C89_areas, C89_rectangle_outside | The limits are exactly least and greatest of all data (rectangle sizes, vector directions and polygon holes are not counted by the code, so rectangles can leave the plot area: C89_rectangle_outside; labels and markers of lines are not considered). Exact arithmetic: with float limits see C23_float_limit_outside.
C91 | partial | C91_axis_partial, C91_axes, C91_values_partial, C91_values_default, C91_values_categories, C91_duplicate_category, C91_title_extent, C91_axis | C91_axis_partial is an equivalence for all axes except titles of axes with `align` x or y, which the code places by the wrong dimension of the text (C91_title_extent). C91_values_partial covers all placements but exponential-steps and subdivide on logarithmic scales, where the code prints other values (C24_exp_steps_labels, C24_subdivide_log_fails); duplicated categories are labelled where no data go (C91_duplicate_category). Measures such as 1em for paddings count as 1px (not converted).
C92 | partial | C92_scale, C92_placement, C92_list_forms_refused, C92_placement_list_forms_refused, C92_inverted_categorical, C92_inverted_stays, C92_padding_stays, C92_stale_category | The accepted settings and their effects are characterised exactly (C92_scale, C92_placement). Violated by the code: the documented list forms (linear), (log), (inverted), (categorical) are refused, inverted has no effect on categorical scales and is never undone, linear after categorical keeps the wider limits, categories of an earlier list stay accepted.
C93 | proved | C93_lines, C93_points, C93_bars, C93_areas, C93_errorbars, C93_rectangles, C93_vectors, C93_labels, C93_polygons, C93_grid, C93_background, C93_legend_item, C93_legend, C93_axes, C93_axis | the defaults are written out in Spec/Defaults.lean; the single axis command starts from a fresh linear scale, not from that of the plot (C93_axis)
C94 | proved | C94_lines, C94_points, C94_bars, C94_areas, C94_errorbars, C94_rectangles, C94_vectors, C94_labels, C94_polygons, C94_grid, C94_background | Equivalences: the command succeeds with this result iff the picture is the specified one. Spec/ElementPictures.lean; includes the violations (labels and grid upside down, slanted error bars, unscaled holes).
C95 | partial | C95_legend, C95_rows, C95_flow, C95_apart_partial, C95_frame, C95_inside_partial, C95_width_partial, C95_wide_first | C95_legend: a legend command succeeds exactly when it draws the picture of Spec/LegendPicture (and changes nothing else), for all settings. The layout loops are exactly the stacked and the flowing layout of the specification (C95_rows, C95_flow; the breaking into rows is unique). Partial: items are apart and inside only for sizes and distances that are not negative and if the frame is not cut to the plot area; a first item that is too wide begins below an empty row (C95_wide_first); the marker does not count for the size of an item; the border called top is drawn along the lower edge and that called bottom along the upper edge, and both are always solid
C96 | proved | C96_background, C96_lines, C96_points, C96_labels, C96_bars, C96_areas, C96_errorbars, C96_rectangles, C96_vectors, C96_grid, C96_legend, C96_axes, C96_axis, C96_polygons | the deviations of the pictures from what one would expect are part of the specification (mirrored grid lines C63, clamped base lines etc.), see the notes of C94, C91 and C95
C97 | proved | C97_plot, C97_area, C97_adds | real arithmetic in place of doubles
C98 | partial | C98_text, C98_page, C98_svg_partial | C98_text is the full statement for pictures; C98_svg_partial needs colours in 0..1, which the code does not check (C87); real arithmetic in place of doubles
C99 | proved | C99_font, C99_program | fontconfig and FreeType are parameters; the input text to picture relation is that of C98
C100 | proved | C100_outline, C100_closed, C100_extent, C100_accepts, C100_truncates | the calls of FreeType that load the glyph are not modelled; coordinates are exact. Malformed contours: C100_truncates, C100_accepts (abort)
C101 | partial | C101_eval_ignored, C101_format, C101_state | Violated by the code (proved for every history): clip_eval evaluates nothing. What the error message and the format setting do is proved exactly.
C102 | partial | C102_export_partial, C102_unique, C102_hangs_iff, C102_bar_hangs | Hypotheses of the positive theorem: numbers below 2^29 (beyond, C34's undefined conversions) and no hatched shape with an edge of length zero; when it hangs is proved exactly (C102_hangs_iff), and that it happens for a hatched bar at the base line. With exactly one such edge the document contains coordinates that are not numbers (C62_nan_vertex).
C103 | partial | C103_documented, C103_documented_partial, C103_points_shapes, C103_rectangles_sizes, C103_axes_refused, C103_legend_extra, C103_document_ignored, C103_parentheses, C103_command_line | Proved for lines, bars, areas, errorbars, vectors, labels and grid; for points, rectangles, axis, axes and legend without the documented options the code refuses, which is proved as well; most options of documents and of the command line are ignored or refused (proved).
C104 | proved | C104_positions, C104_limits, C104_points, C104_plot, C104_plot_vertical | Positions on any linear scale and automatic limits for every a > 0 (positions: a ≠ 0); the whole plot for plots without axes, grids and polygons (axes show the numbers, so they do change), given that the scale gets its limits from options or data (C104_plot, C104_plot_vertical). On logarithmic scales the statement is false for b ≠ 0 and is not claimed.
C105 | proved | C105_swap, C105_order, C105_leave_out | For all elements except polygons, whose automatic limits are changed in both readings, and the commands that set something (axes, margins, scales, limits).
C107 | partial | C107_number, C107_extent, C107_size, C107_position_x, C107_position_y, C107_measure, C107_hash_color, C107_color, C107_column, C107_texts, C107_data, C107_marker_partial, C107_markers, C107_color_map, C107_size_map, C107_data_size, C107_mapped_size, C107_data_color, C107_format | Exact acceptance and value for every kind of argument.  Violated by the code and therefore partial: lists of markers are never accepted, `triangle-left-o` is another triangle, millimetres in a size map are taken for pixels and percentages for zero, units of sizes in the data are dropped, `#` colours accept a sign or a blank.
C106 | proved | C106_leave_out, C106_combine | For every element of the plot module; commands that set something (axes, margins, scales, limits) are not left out.
C108 | partial | C108_image, C108_image_partial, C108_short, C108_curves, C108_fraction, C108_background_only, C108_text, C108_text_size, C108_transform_stays | C108_image is the exact behaviour for all pages and drawings. Violated by the code: curves are left out, heights are rounded down, a shape with one path command makes everything fail, the styles of shapes drawn by the program are not looked at (only the background is painted), texts have the wrong size except at 72 dpi, and their transformation stays in force. The command line program does not call this function at this commit. cairo is represented by the documented meaning of its calls, not by pixels.
C109 | partial | C109_history_partial, C109_no_leak, C109_observe, C109_self_assignment, C109_throw | Proved for all histories without self-assignment of a full option and without exceptions; for these the code is wrong, which is proved.
C110 | partial | C110_safe, C110_succeeds_partial, C110_trailing_slash, C110_exists | Proved for all paths that do not end in a slash; for these the code reports a failure (proved).
C111 | proved | C111_metric, C111_zero, C111_plain | For numbers of at least a million millionth; below, the text is 0.0p.
C112 | partial | C112_string, C112_long_print, C112_grows, C112_file_partial, C112_short_write, C112_error, C112_close, C112_descriptor_zero, C112_standard, C112_open, C112_print_error | Proved for string and buffer streams and for files the system writes whole; short writes, long printed texts and descriptor 0 are violated by the code.
C113 | partial | C113_layouts, C113_category_layouts, C113_formats, C113_scale_types, C113_scale_types_refused, C113_color_map, C113_color_map_refused, C113_units | Violated by the code (proved): category layouts and scale types without an argument are refused in the manual's parentheses, colour maps are refused with a pair of parentheses for each stop, and percentages are refused as lengths.
C114 | proved | C114_plot, C114_document | For the elements of plots and drawings (rectangle, text), and for the items of legends.
C115 | proved | C115_blanks, C115_writing, C115_plain | Adding a comma can make a text refused (a comma before a name), so C115_writing speaks of accepted texts.
C116 | partial | C116_labels, C116_title, C116_axis, C116_axes, C116_defaults, C116_turned_label | proved for unturned labels; violated for turned labels (C116_turned_label); the position along the axis is not restricted (end labels overhang)
C117 | partial | C117_refused, C117_illegal, C117_opened, C117_write, C117_read, C117_seek, C117_size, C117_truncate, C117_writes, C117_reads, C117_write_whole, C117_closed, C117_read_whole_partial, C117_short_read, C117_round_trip, C117_append_ignored, C117_failed_write | whole reads are right only if the system reads everything at once (violated otherwise: C117_short_read); O_APPEND is ignored (C117_append_ignored); a failed write loses the old contents (C117_failed_write)
C118 | proved | C118_descriptors, C118_no_leak |
C119 | proved | C119_instant, C119_label, C119_default, C119_iso, C119_order | strftime enters by its documented meaning for the calendar fields (hypothesis Standard, met by exStrftime_standard)
C120 | partial | C120_kinds, C120_ticks, C120_formats, C120_sizes, C120_units, C120_color_maps, C120_size_maps, C120_line_files, C120_point_files_fails, C120_stroke_partial, C120_stroke_fails, C120_switch | violated by two messages: that for the data of points names csv, which is refused (C120_point_files_fails), and that for line styles does not name dash and dashed (C120_stroke_fails)
C121 | partial | C121_listing, C121_refused, C121_size, C121_hidden_lost, C121_root_undefined, C121_is_directory | violated by the code: files behind hidden names do not count (C121_hidden_lost), and the size of / is undefined (C121_root_undefined)
C122 | proved | C122_plot, C122_document, C122_short_colors, C122_units, C122_sources, C122_solid, C122_draw_units | the settings of the page are left as they are; lists of labels, colours and sizes are not included (there a file appends to what was given before)
C123 | partial | C123_read_back, C123_default, C123_rest_ignored, C123_lacking_undefined, C123_length_ignored, C123_no_such_day, C123_blanks, C123_leading_blanks | violated by the code: a format that leaves a part out is undefined (C123_lacking_undefined), the length is ignored (C123_length_ignored), 30 February is accepted (C123_no_such_day); strftime and strptime enter by their documented meaning
C124 | partial | C124_hex, C124_distinct, C124_alphanumeric, C124_all_texts, C124_zero_aborts | violated by the code: an assertion refuses the word zero (C124_zero_aborts)
C125 | proved | C125_units, C125_order, C125_monotonic, C125_days, C125_whole_days | the clocks of the system are the input
C126 | partial | C126_rows, C126_pixel, C126_unopened_undefined, C126_blank_garbage | violated by the code: the result of fopen is not checked (C126_unopened_undefined); what is handed to libpng is modelled, libpng is not
C127 | partial | C127_plot_partial, C127_refused_partial, C127_document_partial, C127_ticks, C127_drawing, C127_drawing_document | violated by the code where a unit is dropped: tick-length, paddings, widths and patterns given with a unit are numbers of pixels (C127_ticks); missing: plots with these options, and polygons with holes, whose corners the code neither scales nor moves (for drawings nothing is missing); fonts are assumed to scale with the resolution
C128 | partial | C128_rm, C128_rm_silent, C128_mv_iff, C128_mv, C128_truncate_iff, C128_truncate, C128_replace | Violated by the code: FileUtil::rm does not look at the result of unlink, so failure is not reported (C128_rm_silent). Everything else is proved. Names are not resolved through directories, and the calls of the system follow POSIX (trusted).
