C01_sexpr_roundtrip	propext, Classical.choice, Quot.sound
C02_sexpr_balanced	propext, Classical.choice, Quot.sound
C03_sexpr_layout_irrelevant	propext, Classical.choice, Quot.sound
C04_sexpr_termination_fails	propext, Classical.choice, Quot.sound
C04_sexpr_diverges_iff	propext, Classical.choice, Quot.sound
C04_sexpr_terminates_partial	propext, Classical.choice, Quot.sound
C05_clone	propext
C06_plist_roundtrip	propext, Quot.sound
C06_plist_accepts	propext, Quot.sound
C07_plist_terminates	propext, Classical.choice, Quot.sound
C46_plist_unclosed_paren_accepted	propext, Quot.sound
C46_plist_accepts_iff_partial	propext, Classical.choice, Quot.sound
C47_plist_unterminated_string	propext, Classical.choice, Quot.sound
C08_strict_dispatch	propext
C09_passthrough_fails	propext, Classical.choice, Quot.sound
C09_passthrough_exact	propext, Classical.choice, Quot.sound
C09_passthrough_partial	propext, Classical.choice, Quot.sound
C40_first_error_wins	propext
C40_success_iff	propext, Quot.sound
C44_eval_module_partial	propext, Classical.choice, Quot.sound
C44_eval_unknown_module	propext, Classical.choice, Quot.sound
C44_eval_order_fails	propext, Classical.choice, Quot.sound
C48_plot_unknown_ignored	propext, Quot.sound
C48_draw_unknown_partial	propext
C48_text_ignored	propext, Classical.choice, Quot.sound
C49_plot_two_phases	propext, Classical.choice, Quot.sound
C49_plot_prepare_error	propext
C10_csv_roundtrip	propext, Classical.choice, Quot.sound
C10_csv_any_writing_partial	propext, Classical.choice, Quot.sound
C10_csv_trailing_empty_lost	propext, Classical.choice, Quot.sound
C11_csv_total	propext, Classical.choice, Quot.sound
C11_csv_accepts_iff	propext, Classical.choice, Quot.sound
C11_csv_unterminated	propext, Classical.choice, Quot.sound
C11_csv_stray	propext, Classical.choice, Quot.sound
C11_csv_lone_cr	propext, Classical.choice, Quot.sound
C12_extract_column	propext, Classical.choice, Quot.sound
C12_extract_missing	propext, Quot.sound
C12_extract_short_row_partial	propext, Quot.sound
C12_extract_off_by_one	propext, Quot.sound
C13_series_group	propext, Classical.choice, Quot.sound
C13_partition	propext, Classical.choice, Quot.sound
C50_databuf	propext, Classical.choice, Quot.sound
C51_inline_list	propext, Classical.choice, Quot.sound
C51_csv_arguments	propext, Classical.choice, Quot.sound
C51_csv_column	propext, Classical.choice, Quot.sound
C51_inline_other_list	propext, Classical.choice, Quot.sound
C52_format	propext, Classical.choice, Quot.sound
C52_polylines_csv	propext, Classical.choice, Quot.sound
C53_points_csv_refused	propext, Classical.choice, Quot.sound
C53_points_inline_partial	propext, Classical.choice, Quot.sound
C54_geojson_lines	propext, Classical.choice, Quot.sound
C14_utf8_roundtrip	propext, Classical.choice, Quot.sound
C14_long_forms_fail	propext
C15_utf32_roundtrip	propext, Classical.choice, Quot.sound
C15_count	propext, Classical.choice, Quot.sound
C15_utf8_roundtrip	propext, Classical.choice, Quot.sound
C16_accepts_wellformed_partial	propext, Quot.sound
C16_truncated_refused	propext, Classical.choice, Quot.sound
C16_continuation_unchecked	propext, Quot.sound
C16_ascii_first_accepted	propext
C16_accepts_malformed	propext, Quot.sound
C16_diverges	propext, Quot.sound
C55_utf16_bmp_partial	propext, Classical.choice, Quot.sound
C55_utf16_truncates	propext, Classical.choice, Quot.sound
C17_civil_to_unix	propext, Classical.choice, Quot.sound
C17_every_date	propext, Classical.choice, Quot.sound
C17_order	propext, Classical.choice, Quot.sound
C18_iso8601_exact	propext, Classical.choice, Quot.sound
C18_iso8601_roundtrip_partial	propext, Classical.choice, Quot.sound
C18_iso8601_date	propext, Classical.choice, Quot.sound
C18_no_such_day_accepted	propext, Classical.choice, Quot.sound
C18_hour_24_accepted	propext, Classical.choice, Quot.sound
C18_trailing_text_accepted	propext, Classical.choice, Quot.sound
C18_short_input_undefined	propext, Classical.choice, Quot.sound
C18_accepts_iff	propext, Classical.choice, Quot.sound
C18_undefined_iff	propext, Classical.choice, Quot.sound
C18_refuses_iff	propext, Classical.choice, Quot.sound
C18_one_meaning	propext, Classical.choice, Quot.sound
C19_add_sub	propext
C19_diff	propext, Classical.choice, Quot.sound
C19_units	propext, Classical.choice, Quot.sound
C19_from	propext, Classical.choice, Quot.sound
C19_nanoseconds	propext, Classical.choice, Quot.sound
C19_from_exact	propext, Quot.sound
C56_inspect_parts	propext, Classical.choice, Quot.sound
C56_inspect_text_partial	propext, Classical.choice, Quot.sound
C56_inspect_years_fails	propext, Classical.choice, Quot.sound
C38_json_string_partial	propext, Quot.sound
C38_json_escapes_kept	propext, Quot.sound
C38_json_unterminated_loops	propext, Quot.sound
C39_geojson_document	propext, Classical.choice, Quot.sound
C39_geojson_terminates	propext, Classical.choice, Quot.sound
C39_line_shape	propext, Classical.choice, Quot.sound
C39_point_undefined	propext, Classical.choice, Quot.sound
C39_point_3d	propext, Classical.choice, Quot.sound
C39_polygon_4d_corrupt	propext, Classical.choice, Quot.sound
C39_multipolygon_empty_ring_undefined	propext, Classical.choice, Quot.sound
C39_geometry_collection_dropped	propext, Classical.choice, Quot.sound
C39_null_geometry_refused	propext, Classical.choice, Quot.sound
C39_type_not_string	propext, Classical.choice, Quot.sound
C39_not_object	propext, Classical.choice, Quot.sound
C39_empty	propext, Classical.choice, Quot.sound
C39_flat_refused	propext, Classical.choice, Quot.sound
C39_multiline_dimensions	propext, Classical.choice, Quot.sound
C39_delivered_before_error	propext, Classical.choice, Quot.sound
C57_json_tokens	propext, Classical.choice, Quot.sound
C57_json_skip	propext, Classical.choice, Quot.sound
C57_skip_terminates	propext, Quot.sound
C57_skip_sound	propext, Quot.sound
C57_skip_iff	propext, Quot.sound
C58_geojson_polylines	propext, Classical.choice, Quot.sound
C58_geojson_points	propext, Classical.choice, Quot.sound
C58_failures	propext, Classical.choice, Quot.sound
C37_split	propext, Classical.choice, Quot.sound
C37_split_join	propext, Quot.sound
C37_split_join_char	propext, Quot.sound
C37_split_overlap	propext, Classical.choice, Quot.sound
C37_join	propext, Quot.sound
C37_replace	propext, Quot.sound
C37_replace_gone	propext, Classical.choice, Quot.sound
C37_replace_empty_recreates	propext, Classical.choice, Quot.sound
C37_replace_empty_pattern	propext, Quot.sound
C37_prefix_suffix	propext, Classical.choice, Quot.sound
C37_compare	propext
C37_find	propext, Classical.choice, Quot.sound
C59_trim_partial	propext, Classical.choice, Quot.sound
C59_trim_undefined	propext, Classical.choice, Quot.sound
C59_join_paths_partial	propext, Classical.choice, Quot.sound
C59_strip_bytes	propext, Classical.choice, Quot.sound
C59_chomp_partial	propext, Classical.choice, Quot.sound
C60_is_number	propext, Quot.sound
C60_decimal_accepted	propext, Quot.sound
C60_not_numbers_accepted	propext, Classical.choice, Quot.sound
C60_strip_zeros	propext, Quot.sound
C61_hex_print	propext, Classical.choice, Quot.sound
C61_strip_shell	propext, Quot.sound
C61_is_hex	propext, Quot.sound
C20_linear_any_rounding	propext, Classical.choice, Quot.sound
C20_linear_exact	propext, Classical.choice, Quot.sound
C21_log_translate	propext, Classical.choice, Quot.sound
C21_log_untranslate_fails	propext, Classical.choice, Quot.sound
C21_log_untranslate_max_partial	propext, Classical.choice, Quot.sound
C21_log_nonpositive_min	propext, Classical.choice, Quot.sound
C22_categorical	propext, Classical.choice, Quot.sound
C22_bounds	propext, Classical.choice, Quot.sound
C22_inverted_ignored	propext, Classical.choice, Quot.sound
C22_category_index	propext, Classical.choice, Quot.sound
C22_fraction_ignored	propext, Classical.choice, Quot.sound
C23_fit	propext, Classical.choice, Quot.sound
C23_order	propext, Classical.choice, Quot.sound
C23_limits	propext, Classical.choice, Quot.sound
C23_covers_partial	propext, Classical.choice, Quot.sound
C23_float_limit_outside	propext, Classical.choice, Quot.sound
C23_nan_sticks	propext, Classical.choice, Quot.sound
C23_no_data	propext, Classical.choice, Quot.sound
C24_linear	propext, Classical.choice, Quot.sound
C24_interval	propext, Classical.choice, Quot.sound
C24_linear_inside	propext, Classical.choice, Quot.sound
C24_align	propext, Classical.choice, Quot.sound
C24_align_inverted_outside	propext, Classical.choice, Quot.sound
C24_alignat_ticks	propext, Classical.choice, Quot.sound
C24_alignat_fails	propext, Classical.choice, Quot.sound
C24_alignat_multiple_partial	propext, Classical.choice, Quot.sound
C24_subdivide	propext, Classical.choice, Quot.sound
C24_subdivide_log_fails	propext, Classical.choice, Quot.sound
C24_exponential	propext, Classical.choice, Quot.sound
C24_exponential_outside	propext, Classical.choice, Quot.sound
C24_exp_steps	propext, Classical.choice, Quot.sound
C24_exp_steps_labels	propext, Classical.choice, Quot.sound
C24_exponential_rounding	propext, Classical.choice, Quot.sound
C25_positive_step_terminates	propext, Classical.choice, Quot.sound
C25_negative_step_diverges	propext, Classical.choice, Quot.sound
C25_zero_step	propext, Classical.choice, Quot.sound
C25_lost_step_diverges	propext, Classical.choice, Quot.sound
C25_exponential_terminates	propext, Classical.choice, Quot.sound
C25_exponential_diverges	propext, Classical.choice, Quot.sound
C25_exponential_unbounded	propext, Classical.choice, Quot.sound
C25_exp_steps	propext, Classical.choice, Quot.sound
C29_product	propext, Classical.choice, Quot.sound
C29_compose	propext, Classical.choice, Quot.sound
C29_compose_points	propext, Classical.choice, Quot.sound
C29_actions	propext, Classical.choice, Quot.sound
C29_inverses	propext, Classical.choice, Quot.sound
C29_from_deg	propext, Classical.choice, Quot.sound
C29_sort	propext, Classical.choice, Quot.sound
C29_mean	propext, Classical.choice, Quot.sound
C29_vectors	propext, Classical.choice, Quot.sound
C29_mirror	propext, Classical.choice, Quot.sound
C30_transform	propext, Classical.choice, Quot.sound
C30_transform_compose	propext, Classical.choice, Quot.sound
C30_polygon_round_trip	propext, Classical.choice, Quot.sound
C30_poly2	propext, Classical.choice, Quot.sound
C30_rectangle	propext, Classical.choice, Quot.sound
C30_circle	propext, Classical.choice, Quot.sound
C30_to_polygon	propext, Classical.choice, Quot.sound
C30_add_lines	propext, Classical.choice, Quot.sound
C30_flatten	propext, Classical.choice, Quot.sound
C31_margin_inside_partial	propext, Classical.choice, Quot.sound
C31_margin_size	propext, Classical.choice, Quot.sound
C31_margin_outside	propext, Classical.choice, Quot.sound
C31_align	propext, Classical.choice, Quot.sound
C31_rotate_bounds	propext, Classical.choice, Quot.sound
C41_point_on_both	propext, Classical.choice, Quot.sound
C41_parallel	propext, Classical.choice, Quot.sound
C41_threshold	propext, Classical.choice, Quot.sound
C41_orientation_matters	propext, Classical.choice, Quot.sound
C41_zero_direction	propext, Classical.choice, Quot.sound
C41_segment	propext, Classical.choice, Quot.sound
C41_segments	propext, Classical.choice, Quot.sound
C41_segment_complete	propext, Classical.choice, Quot.sound
C41_segments_complete	propext, Classical.choice, Quot.sound
C41_polygon	propext, Classical.choice, Quot.sound
C62_hatch_partial	propext, Classical.choice, Quot.sound
C62_degenerate_diverges	propext, Classical.choice, Quot.sound
C62_flat_rectangle_diverges	propext, Classical.choice, Quot.sound
C62_nan_vertex	propext, Classical.choice, Quot.sound
C62_stripes_partial	propext, Classical.choice, Quot.sound
C62_offset_empty	propext, Classical.choice, Quot.sound
C62_ends	propext, Classical.choice, Quot.sound
C42_lines_partial	propext, Classical.choice, Quot.sound
C42_every_point_once	propext, Classical.choice, Quot.sound
C42_inside	propext, Classical.choice, Quot.sound
C42_geojson	propext, Classical.choice, Quot.sound
C42_surplus_labels_undefined	propext, Classical.choice, Quot.sound
C63_points_partial	propext, Classical.choice, Quot.sound
C63_bars_vertical	propext, Classical.choice, Quot.sound
C63_bars_vertical_offsets	propext, Classical.choice, Quot.sound
C63_bars_horizontal	propext, Classical.choice, Quot.sound
C63_areas	propext, Classical.choice, Quot.sound
C63_errorbars_vertical_partial	propext, Classical.choice, Quot.sound
C63_errorbar_caps	propext, Classical.choice, Quot.sound
C63_rectangles	propext, Classical.choice, Quot.sound
C63_vectors_partial	propext, Classical.choice, Quot.sound
C63_polygons_partial	propext, Classical.choice, Quot.sound
C63_grid_x	propext, Classical.choice, Quot.sound
C63_arrow	propext, Classical.choice, Quot.sound
C63_errorbars_horizontal_slanted	propext, Classical.choice, Quot.sound
C63_errorbar_degenerate	propext, Classical.choice, Quot.sound
C63_vectors_missing_direction	propext, Classical.choice, Quot.sound
C63_polygon_holes_unscaled	propext, Classical.choice, Quot.sound
C63_grid_y_mirrored	propext, Classical.choice, Quot.sound
C63_labels_mirrored	propext, Classical.choice, Quot.sound
C63_bar_labels_partial	propext, Classical.choice, Quot.sound
C63_lengths_partial	propext, Classical.choice, Quot.sound
C63_lengths_inverted	propext, Classical.choice, Quot.sound
C63_plot_area	propext, Classical.choice, Quot.sound
C64_numeric	propext, Classical.choice, Quot.sound
C64_categorical	propext, Classical.choice, Quot.sound
C65_cycle	propext, Quot.sound
C66_named_shapes	propext, Classical.choice, Quot.sound
C66_unknown_shape	propext, Classical.choice, Quot.sound
C66_circles	propext, Classical.choice, Quot.sound
C66_shape_lists_refused	propext, Classical.choice, Quot.sound
C66_triangles_confused	propext, Classical.choice, Quot.sound
C66_looks_partial	propext, Classical.choice, Quot.sound
C26_inch	propext, Classical.choice, Quot.sound
C26_points_invertible	propext, Classical.choice, Quot.sound
C26_normalize_idempotent	propext, Classical.choice, Quot.sound
C26_normalize_values	propext, Classical.choice, Quot.sound
C26_typographic	propext, Classical.choice, Quot.sound
C26_user_chain	propext, Classical.choice, Quot.sound
C26_layer_size	propext, Classical.choice, Quot.sound
C26_mm_not_normalized	propext, Classical.choice, Quot.sound
C26_mm_font_ignored	propext, Classical.choice, Quot.sound
C26_other_sizes_zero	propext, Classical.choice, Quot.sound
C26_parse	propext, Classical.choice, Quot.sound
C26_parse_no_number	propext, Classical.choice, Quot.sound
C26_measure_or	propext, Classical.choice, Quot.sound
C67_paper_sizes	propext, Classical.choice, Quot.sound
C67_named_size	propext, Classical.choice, Quot.sound
C67_default	propext, Classical.choice, Quot.sound
C67_explicit_size	propext, Classical.choice, Quot.sound
C68_size_units	propext, Classical.choice, Quot.sound
C68_percent	propext, Classical.choice, Quot.sound
C68_refused	propext, Classical.choice, Quot.sound
C68_units	propext, Classical.choice, Quot.sound
C68_size_map	propext, Classical.choice, Quot.sound
C43_custom_cycle	propext
C43_custom_empty	propext
C43_custom_inline	propext, Classical.choice, Quot.sound
C43_custom_csv	propext, Classical.choice, Quot.sound
C69_fixed	propext, Classical.choice, Quot.sound
C69_integer	propext, Classical.choice, Quot.sound
C69_scientific	propext, Classical.choice, Quot.sound
C69_zero	propext, Classical.choice, Quot.sound
C69_no_number	propext, Classical.choice, Quot.sound
C69_base_partial	propext, Classical.choice, Quot.sound
C69_scientific_small	propext, Classical.choice, Quot.sound
C69_base_truncates	propext, Classical.choice, Quot.sound
C69_tiny_ticks	propext, Classical.choice, Quot.sound
C69_fixed_tie	propext, Classical.choice, Quot.sound
C69_datetime	propext, Classical.choice, Quot.sound
C69_datetime_undefined	propext, Classical.choice, Quot.sound
C69_base_rounding	propext, Classical.choice, Quot.sound
C70_words	propext, Classical.choice, Quot.sound
C70_arguments	propext, Classical.choice, Quot.sound
C70_refused	propext, Classical.choice, Quot.sound
C70_bad_arguments	propext, Classical.choice, Quot.sound
C70_effect	propext, Classical.choice, Quot.sound
C27_parse	propext, Classical.choice, Quot.sound
C27_parse_alpha	propext, Classical.choice, Quot.sound
C27_parse_short	propext, Classical.choice, Quot.sound
C27_round_trip	propext, Classical.choice, Quot.sound
C27_round_trip_alpha	propext, Classical.choice, Quot.sound
C27_extremes	propext, Classical.choice, Quot.sound
C27_refused_partial	propext, Classical.choice, Quot.sound
C27_nonhex_throws	propext, Classical.choice, Quot.sound
C27_nonhex_accepted	propext, Classical.choice, Quot.sound
C27_negative	propext, Classical.choice, Quot.sound
C27_is_black	propext, Classical.choice, Quot.sound
C28_steps	propext, Classical.choice, Quot.sound
C28_gradient_stops	propext, Classical.choice, Quot.sound
C28_gradient_between	propext, Classical.choice, Quot.sound
C28_gradient_below	propext, Classical.choice, Quot.sound
C28_clamp	propext, Classical.choice, Quot.sound
C28_invalid	propext, Classical.choice, Quot.sound
C28_gradient_above	propext, Classical.choice, Quot.sound
C71_index	propext, Classical.choice, Quot.sound
C71_lists	propext, Classical.choice, Quot.sound
C71_map_read	propext, Classical.choice, Quot.sound
C71_map_refused	propext, Classical.choice, Quot.sound
C71_palettes	propext, Classical.choice, Quot.sound
C71_data_index	propext, Classical.choice, Quot.sound
C71_bad_index	propext, Classical.choice, Quot.sound
C32_permutation	propext, Classical.choice, Quot.sound
C32_order	propext, Classical.choice, Quot.sound
C32_uniform	propext, Classical.choice, Quot.sound
C32_empty_undefined	propext, Classical.choice, Quot.sound
C72_ltr	propext, Classical.choice, Quot.sound
C72_rtl	propext, Classical.choice, Quot.sound
C72_height	propext, Classical.choice, Quot.sound
C72_no_overlap	propext, Classical.choice, Quot.sound
C72_error	propext, Classical.choice, Quot.sound
C33_body	propext, Classical.choice, Quot.sound
C33_attr_partial	propext, Classical.choice, Quot.sound
C33_attr_quote	propext, Classical.choice, Quot.sound
C33_attr_raw	propext, Classical.choice, Quot.sound
C34_document	propext, Classical.choice, Quot.sound
C34_defined	propext, Classical.choice, Quot.sound
C34_flip	propext, Classical.choice, Quot.sound
C34_large_undefined	propext, Classical.choice, Quot.sound
C34_improper_color	propext, Classical.choice, Quot.sound
C73_draw_shape	propext, Classical.choice, Quot.sound
C73_draw_shape_onto	propext, Classical.choice, Quot.sound
C35_history	propext, Quot.sound
C35_reads	propext, Classical.choice, Quot.sound
C35_truncate	propext, Quot.sound
C35_move	none
C35_self_assign	propext, Quot.sound
C35_copy_mark	none
C35_mark	propext
C35_sized	propext, Quot.sound
C36_write_other	propext, Classical.choice, Quot.sound
C36_read_back_partial	propext, Classical.choice, Quot.sound
C36_bright_negative	propext, Classical.choice, Quot.sound
C36_write_back	propext, Classical.choice, Quot.sound
C36_clear	propext, Classical.choice, Quot.sound
C36_rgb	propext, Classical.choice, Quot.sound
C36_convert	propext, Classical.choice, Quot.sound
C45_parse	propext, Classical.choice, Quot.sound
C45_unknown	propext, Classical.choice, Quot.sound
C45_missing_value	propext, Classical.choice, Quot.sound
C45_switch_value	propext, Classical.choice, Quot.sound
C45_values	propext, Classical.choice, Quot.sound
C74_failure_no_output	propext, Quot.sound
C74_export_svg	propext, Classical.choice, Quot.sound
C74_errors	propext, Classical.choice, Quot.sound
C74_png_empty	propext, Classical.choice, Quot.sound
C74_usage	propext, Classical.choice, Quot.sound
C74_options	propext, Classical.choice, Quot.sound
C74_version	propext, Classical.choice, Quot.sound
C74_help	propext, Classical.choice, Quot.sound
C74_check_only	propext, Classical.choice, Quot.sound
C74_invalid	propext
C75_crash	propext, Quot.sound
C75_not_atomic	propext, Quot.sound
C76_inspect_partial	propext, Classical.choice, Quot.sound
C76_inspect_strings	propext, Classical.choice, Quot.sound
C77_params_partial	propext, Quot.sound
C77_stops_at_bare	propext
C77_malformed	propext
C78_fill	propext, Classical.choice, Quot.sound
C78_stroke	propext, Classical.choice, Quot.sound
C78_refused	propext, Classical.choice, Quot.sound
C79_fill_partial	propext, Classical.choice, Quot.sound
C79_stroke_partial	propext, Classical.choice, Quot.sound
C79_hatch_stays	propext, Classical.choice, Quot.sound
C79_none_sticks	propext, Classical.choice, Quot.sound
C79_mm_wrong	propext, Classical.choice, Quot.sound
C79_fill_refused	propext, Classical.choice, Quot.sound
C80_switch	propext, Classical.choice, Quot.sound
C80_enum	propext, Quot.sound
C80_pair	propext, Classical.choice, Quot.sound
C80_vec2	propext, Classical.choice, Quot.sound
C81_rectangle	propext, Classical.choice, Quot.sound
C81_refused	propext, Classical.choice, Quot.sound
C81_module	propext, Classical.choice, Quot.sound
C82_draw	propext, Classical.choice, Quot.sound
C82_text	propext, Classical.choice, Quot.sound
C82_unique	propext, Classical.choice, Quot.sound
C82_frame	propext, Classical.choice, Quot.sound
C82_empty_undefined	propext, Classical.choice, Quot.sound
C83_rotated	propext, Classical.choice, Quot.sound
C84_fallback	propext, Classical.choice, Quot.sound
C85_runs	propext, Classical.choice, Quot.sound
C85_unique	propext, Classical.choice, Quot.sound
C86_settings	propext, Classical.choice, Quot.sound
C87_document_partial	propext, Classical.choice, Quot.sound
C87_svg_partial	propext, Classical.choice, Quot.sound
C88_adds	propext, Classical.choice, Quot.sound
C88_refused	propext, Classical.choice, Quot.sound
C90_lines	propext, Classical.choice, Quot.sound
C90_points	propext, Classical.choice, Quot.sound
C90_bars	propext, Classical.choice, Quot.sound
C90_areas	propext, Classical.choice, Quot.sound
C90_errorbars	propext, Classical.choice, Quot.sound
C90_rectangles	propext, Classical.choice, Quot.sound
C90_vectors	propext, Classical.choice, Quot.sound
C90_labels	propext, Classical.choice, Quot.sound
C90_polygons	propext, Classical.choice, Quot.sound
C90_grid	propext, Classical.choice, Quot.sound
C90_background	propext, Classical.choice, Quot.sound
C90_unknown	propext, Classical.choice, Quot.sound
C90_inline_lengths	propext, Classical.choice, Quot.sound
C90_axes	propext, Classical.choice, Quot.sound
C90_axis_partial	propext, Classical.choice, Quot.sound
C90_axis_unknown	propext, Classical.choice, Quot.sound
C90_axis_empty	propext, Classical.choice, Quot.sound
C90_axes_tick_placement	propext, Classical.choice, Quot.sound
C90_legend_item	propext, Classical.choice, Quot.sound
C90_legend	propext, Classical.choice, Quot.sound
C89_limits	propext, Classical.choice, Quot.sound
C89_same_limits	propext, Classical.choice, Quot.sound
C89_inside	propext, Classical.choice, Quot.sound
C89_automatic	propext, Classical.choice, Quot.sound
C89_lines	propext, Classical.choice, Quot.sound
C89_areas	propext, Classical.choice, Quot.sound
C89_rectangle_outside	propext, Classical.choice, Quot.sound
C91_axis_partial	propext, Classical.choice, Quot.sound
C91_axes	propext, Classical.choice, Quot.sound
C91_values_partial	propext, Classical.choice, Quot.sound
C91_values_default	propext, Classical.choice, Quot.sound
C91_values_categories	propext, Classical.choice, Quot.sound
C91_duplicate_category	propext, Classical.choice, Quot.sound
C91_title_extent	propext, Classical.choice, Quot.sound
C91_axis	propext, Classical.choice, Quot.sound
C92_scale	propext, Classical.choice, Quot.sound
C92_placement	propext, Classical.choice, Quot.sound
C92_list_forms_refused	propext, Classical.choice, Quot.sound
C92_placement_list_forms_refused	propext, Classical.choice, Quot.sound
C92_inverted_categorical	propext, Classical.choice, Quot.sound
C92_inverted_stays	propext, Classical.choice, Quot.sound
C92_padding_stays	propext, Classical.choice, Quot.sound
C92_stale_category	propext, Classical.choice, Quot.sound
C93_lines	propext, Classical.choice, Quot.sound
C93_points	propext, Classical.choice, Quot.sound
C93_bars	propext, Classical.choice, Quot.sound
C93_areas	propext, Classical.choice, Quot.sound
C93_errorbars	propext, Classical.choice, Quot.sound
C93_rectangles	propext, Classical.choice, Quot.sound
C93_vectors	propext, Classical.choice, Quot.sound
C93_labels	propext, Classical.choice, Quot.sound
C93_polygons	propext, Classical.choice, Quot.sound
C93_grid	propext, Classical.choice, Quot.sound
C93_background	propext, Classical.choice, Quot.sound
C93_legend_item	propext, Classical.choice, Quot.sound
C93_legend	propext, Classical.choice, Quot.sound
C93_axes	propext, Classical.choice, Quot.sound
C93_axis	propext, Classical.choice, Quot.sound
C94_lines	propext, Classical.choice, Quot.sound
C94_points	propext, Classical.choice, Quot.sound
C94_bars	propext, Classical.choice, Quot.sound
C94_areas	propext, Classical.choice, Quot.sound
C94_errorbars	propext, Classical.choice, Quot.sound
C94_rectangles	propext, Classical.choice, Quot.sound
C94_vectors	propext, Classical.choice, Quot.sound
C94_labels	propext, Classical.choice, Quot.sound
C94_polygons	propext, Classical.choice, Quot.sound
C94_grid	propext, Classical.choice, Quot.sound
C94_background	propext, Classical.choice, Quot.sound
C95_legend	propext, Classical.choice, Quot.sound
C95_rows	propext, Classical.choice, Quot.sound
C95_flow	propext, Classical.choice, Quot.sound
C95_apart_partial	propext, Classical.choice, Quot.sound
C95_frame	propext, Classical.choice, Quot.sound
C95_inside_partial	propext, Classical.choice, Quot.sound
C95_width_partial	propext, Classical.choice, Quot.sound
C95_wide_first	propext, Classical.choice, Quot.sound
C96_background	propext, Classical.choice, Quot.sound
C96_lines	propext, Classical.choice, Quot.sound
C96_points	propext, Classical.choice, Quot.sound
C96_labels	propext, Classical.choice, Quot.sound
C96_bars	propext, Classical.choice, Quot.sound
C96_areas	propext, Classical.choice, Quot.sound
C96_errorbars	propext, Classical.choice, Quot.sound
C96_rectangles	propext, Classical.choice, Quot.sound
C96_vectors	propext, Classical.choice, Quot.sound
C96_grid	propext, Classical.choice, Quot.sound
C96_legend	propext, Classical.choice, Quot.sound
C96_axes	propext, Classical.choice, Quot.sound
C96_axis	propext, Classical.choice, Quot.sound
C96_polygons	propext, Classical.choice, Quot.sound
C97_plot	propext, Classical.choice, Quot.sound
C97_area	propext, Classical.choice, Quot.sound
C97_adds	propext, Classical.choice, Quot.sound
C98_text	propext, Classical.choice, Quot.sound
C98_page	propext, Classical.choice, Quot.sound
C98_svg_partial	propext, Classical.choice, Quot.sound
C99_font	propext, Classical.choice, Quot.sound
C99_program	propext, Classical.choice, Quot.sound
C100_outline	propext, Classical.choice, Quot.sound
C100_closed	propext, Classical.choice, Quot.sound
C100_extent	propext, Classical.choice, Quot.sound
C100_accepts	propext, Classical.choice, Quot.sound
C100_truncates	propext, Classical.choice, Quot.sound
C101_eval_ignored	propext, Classical.choice, Quot.sound
C101_format	propext, Classical.choice, Quot.sound
C101_state	propext, Classical.choice, Quot.sound
C102_export_partial	propext, Classical.choice, Quot.sound
C102_unique	propext, Classical.choice, Quot.sound
C102_hangs_iff	propext, Classical.choice, Quot.sound
C102_bar_hangs	propext, Classical.choice, Quot.sound
C103_documented	propext, Classical.choice, Quot.sound
C103_documented_partial	propext, Classical.choice, Quot.sound
C103_points_shapes	propext, Classical.choice, Quot.sound
C103_rectangles_sizes	propext, Classical.choice, Quot.sound
C103_axes_refused	propext, Classical.choice, Quot.sound
C103_legend_extra	propext, Classical.choice, Quot.sound
C103_document_ignored	propext, Classical.choice, Quot.sound
C103_parentheses	propext, Classical.choice, Quot.sound
C103_command_line	propext, Classical.choice, Quot.sound
C104_positions	propext, Classical.choice, Quot.sound
C104_limits	propext, Classical.choice, Quot.sound
C104_points	propext, Classical.choice, Quot.sound
C104_plot	propext, Classical.choice, Quot.sound
C104_plot_vertical	propext, Classical.choice, Quot.sound
C105_swap	propext, Classical.choice, Quot.sound
C105_order	propext, Classical.choice, Quot.sound
C105_leave_out	propext, Classical.choice, Quot.sound
C107_number	propext, Classical.choice, Quot.sound
C107_extent	propext, Classical.choice, Quot.sound
C107_size	propext, Classical.choice, Quot.sound
C107_position_x	propext, Classical.choice, Quot.sound
C107_position_y	propext, Classical.choice, Quot.sound
C107_measure	propext, Classical.choice, Quot.sound
C107_hash_color	propext, Classical.choice, Quot.sound
C107_color	propext, Classical.choice, Quot.sound
C107_column	propext, Classical.choice, Quot.sound
C107_texts	propext, Classical.choice, Quot.sound
C107_data	propext, Classical.choice, Quot.sound
C107_marker_partial	propext, Classical.choice, Quot.sound
C107_markers	propext, Classical.choice, Quot.sound
C107_color_map	propext, Classical.choice, Quot.sound
C107_size_map	propext, Classical.choice, Quot.sound
C107_data_size	propext, Classical.choice, Quot.sound
C107_mapped_size	propext, Classical.choice, Quot.sound
C107_data_color	propext, Classical.choice, Quot.sound
C107_format	propext, Classical.choice, Quot.sound
C106_leave_out	propext, Classical.choice, Quot.sound
C106_combine	propext, Classical.choice, Quot.sound
C108_image	propext, Classical.choice, Quot.sound
C108_image_partial	propext, Classical.choice, Quot.sound
C108_short	propext, Classical.choice, Quot.sound
C108_curves	propext, Classical.choice, Quot.sound
C108_fraction	propext, Classical.choice, Quot.sound
C108_background_only	propext, Classical.choice, Quot.sound
C108_text	propext, Classical.choice, Quot.sound
C108_text_size	propext, Classical.choice, Quot.sound
C108_transform_stays	propext, Classical.choice, Quot.sound
C109_history_partial	propext, Classical.choice, Quot.sound
C109_no_leak	propext, Classical.choice, Quot.sound
C109_observe	propext, Quot.sound
C109_self_assignment	propext, Quot.sound
C109_throw	propext, Quot.sound
C110_safe	propext, Classical.choice, Quot.sound
C110_succeeds_partial	propext, Classical.choice, Quot.sound
C110_trailing_slash	propext, Classical.choice, Quot.sound
C110_exists	propext, Classical.choice, Quot.sound
C111_metric	propext, Classical.choice, Quot.sound
C111_zero	propext, Classical.choice, Quot.sound
C111_plain	propext, Classical.choice, Quot.sound
C112_string	propext
C112_long_print	propext
C112_grows	propext
C112_file_partial	propext
C112_short_write	propext, Quot.sound
C112_error	propext
C112_close	propext, Quot.sound
C112_descriptor_zero	propext
C112_standard	propext
C112_open	propext, Quot.sound
C112_print_error	propext
C113_layouts	propext, Classical.choice, Quot.sound
C113_category_layouts	propext, Classical.choice, Quot.sound
C113_formats	propext, Classical.choice, Quot.sound
C113_scale_types	propext, Classical.choice, Quot.sound
C113_scale_types_refused	propext, Classical.choice, Quot.sound
C113_color_map	propext, Classical.choice, Quot.sound
C113_color_map_refused	propext, Classical.choice, Quot.sound
C113_units	propext, Classical.choice, Quot.sound
C114_plot	propext, Classical.choice, Quot.sound
C114_document	propext, Classical.choice, Quot.sound
C115_blanks	propext, Classical.choice, Quot.sound
C115_writing	propext, Classical.choice, Quot.sound
C115_plain	propext
C116_labels	propext, Classical.choice, Quot.sound
C116_title	propext, Classical.choice, Quot.sound
C116_axis	propext, Classical.choice, Quot.sound
C116_axes	propext, Classical.choice, Quot.sound
C116_defaults	propext, Classical.choice, Quot.sound
C116_turned_label	propext, Classical.choice, Quot.sound
C117_refused	propext, Quot.sound
C117_illegal	propext
C117_opened	propext, Quot.sound
C117_write	propext, Quot.sound
C117_read	propext, Quot.sound
C117_seek	propext, Quot.sound
C117_size	propext
C117_truncate	propext, Quot.sound
C117_writes	propext, Classical.choice, Quot.sound
C117_reads	propext, Classical.choice, Quot.sound
C117_write_whole	propext, Quot.sound
C117_closed	propext, Quot.sound
C117_read_whole_partial	propext, Quot.sound
C117_short_read	propext, Classical.choice, Quot.sound
C117_round_trip	propext, Quot.sound
C117_append_ignored	propext, Quot.sound
C117_failed_write	propext, Quot.sound
C118_descriptors	propext, Quot.sound
C118_no_leak	propext, Quot.sound
C119_instant	propext, Quot.sound
C119_label	propext, Classical.choice, Quot.sound
C119_default	propext, Classical.choice, Quot.sound
C119_iso	propext, Classical.choice, Quot.sound
C119_order	propext, Classical.choice, Quot.sound
C120_kinds	propext, Classical.choice, Quot.sound
C120_ticks	propext, Classical.choice, Quot.sound
C120_formats	propext, Classical.choice, Quot.sound
C120_sizes	propext, Classical.choice, Quot.sound
C120_units	propext, Classical.choice, Quot.sound
C120_color_maps	propext, Classical.choice, Quot.sound
C120_size_maps	propext, Classical.choice, Quot.sound
C120_line_files	propext, Classical.choice, Quot.sound
C120_point_files_fails	propext, Classical.choice, Quot.sound
C120_stroke_partial	propext, Classical.choice, Quot.sound
C120_stroke_fails	propext, Classical.choice, Quot.sound
C120_switch	propext, Classical.choice, Quot.sound
C121_listing	propext, Quot.sound
C121_refused	propext, Quot.sound
C121_size	propext, Classical.choice, Quot.sound
C121_hidden_lost	propext, Classical.choice, Quot.sound
C121_root_undefined	propext, Classical.choice, Quot.sound
C121_is_directory	propext, Quot.sound
C122_plot	propext, Classical.choice, Quot.sound
C122_document	propext, Classical.choice, Quot.sound
C122_short_colors	propext, Classical.choice, Quot.sound
C122_units	propext, Classical.choice, Quot.sound
C122_sources	propext, Classical.choice, Quot.sound
C122_solid	propext, Classical.choice, Quot.sound
C122_draw_units	propext, Classical.choice, Quot.sound
C123_read_back	propext, Classical.choice, Quot.sound
C123_default	propext, Classical.choice, Quot.sound
C123_rest_ignored	propext, Classical.choice, Quot.sound
C123_lacking_undefined	propext, Classical.choice, Quot.sound
C123_length_ignored	propext, Classical.choice, Quot.sound
C123_no_such_day	propext, Classical.choice, Quot.sound
C123_blanks	propext, Quot.sound
C123_leading_blanks	propext, Quot.sound
C124_hex	propext, Classical.choice, Quot.sound
C124_distinct	propext, Classical.choice, Quot.sound
C124_alphanumeric	propext, Classical.choice, Quot.sound
C124_all_texts	propext, Classical.choice, Quot.sound
C124_zero_aborts	propext, Classical.choice, Quot.sound
C125_units	propext, Classical.choice, Quot.sound
C125_order	propext, Classical.choice, Quot.sound
C125_monotonic	propext, Classical.choice, Quot.sound
C125_days	propext, Classical.choice, Quot.sound
C125_whole_days	propext, Classical.choice, Quot.sound
C126_rows	propext, Classical.choice, Quot.sound
C126_pixel	propext, Classical.choice, Quot.sound
C126_unopened_undefined	propext
C126_blank_garbage	propext, Classical.choice, Quot.sound
C127_plot_partial	propext, Classical.choice, Quot.sound
C127_refused_partial	propext, Classical.choice, Quot.sound
C127_document_partial	propext, Classical.choice, Quot.sound
C127_ticks	propext, Classical.choice, Quot.sound
C127_drawing	propext, Classical.choice, Quot.sound
C127_drawing_document	propext, Classical.choice, Quot.sound
C128_rm	propext, Quot.sound
C128_rm_silent	propext
C128_mv_iff	propext
C128_mv	propext
C128_truncate_iff	propext
C128_truncate	propext, Quot.sound
C128_replace	propext, Quot.sound
