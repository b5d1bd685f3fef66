
## 4. Disagreements between the code and the properties

Each is proved (theorem in parentheses).  They are findings about the code at the pinned commit.

* A backslash outside a string makes the s-expression parser loop for ever (`C04_sexpr_termination_fails`); the set of
  such inputs is exact (`C04_sexpr_diverges_iff`).
* A missing `)` before `;` is accepted in property lists (`C46_plist_unclosed_paren_accepted`).
* An unknown command is handed on together with everything after it (`C09_passthrough_fails`), so settings after the first
  module command are executed and then handed to the module again (`C44_eval_order_fails`); an unknown command in a plot is
  ignored (`C48_plot_unknown_ignored`).
* CSV: an empty last field is lost without a final line break (`C10_csv_trailing_empty_lost`); a row that is one
  entry too short throws (`C12_extract_off_by_one`); CSV files for points are always refused (`C53_points_csv_refused`).
* UTF-8: validation accepts malformed text and can loop for ever (`C16_accepts_malformed`, `C16_diverges`); UTF-16 conversion
  truncates outside the BMP (`C55_utf16_truncates`).
* ISO 8601: 30 and 31 February are accepted (`C18_no_such_day_accepted`), as are hour 24 and trailing text; short inputs read
  out of bounds (`C18_short_input_undefined`).
* JSON: escapes are never decoded (`C38_json_escapes_kept`); an unterminated string never returns
  (`C38_json_unterminated_loops`).  GeoJSON: every two-dimensional Point reads out of bounds (`C39_point_undefined`); geometry
  collections are dropped; four-dimensional polygons are corrupted.
* String utilities: trimming a blank text is undefined (`C59_trim_undefined`); replacing an empty pattern never ends
  (`C37_replace_empty_pattern`); "numbers" without digits are accepted (`C60_not_numbers_accepted`).
* Scales: the inverse of a logarithmic scale is wrong (`C21_log_untranslate_fails`); `invert` is ignored for
  categories (`C22_inverted_ignored`); a NaN datum sticks (`C23_nan_sticks`); tick loops with negative steps, lost steps
  or bases of at most one never end (`C25_*_diverges`); `alignat`, `subdivide` on logarithmic scales, and exponential layouts
  misplace ticks (`C24_*`); rounded logarithms lose the tick at the minimum of a logarithmic axis and make `base` labels
  show the exponent before, e.g. 10² for 1000 (`C24_exponential_rounding`, `C69_base_rounding`).
* Lengths: millimetres are not normalised (`C26_mm_not_normalized`) or use a wrong factor (`C79_mm_wrong`).
* Colours: malformed hex colours throw or are accepted (`C27_nonhex_throws`, `C27_nonhex_accepted`); a colour map asked
  for a value above its last stop reads past the end (`C28_gradient_above`); palette indices from data are off by one
  (`C71_data_index`).
* Plots: horizontal error bars are slanted, y grid lines and labels are mirrored, polygon holes are not scaled, missing
  directions of vectors and surplus labels read out of bounds (`C63_*`, `C42_surplus_labels_undefined`).  Lists of marker
  shapes are never accepted (`C66_shape_lists_refused`).
* Widths and offsets of bars given as a list are always refused (`C90_inline_lengths`).  The automatic limits ignore the sizes
  of rectangles, the directions of vectors and holes of polygons (`C89_limits`, `C89_rectangle_outside`).
* `axes` refuses `tick-placement-x` and `tick-placement-y` (`C90_axes_tick_placement`); `axis` ignores unknown options
  (`C90_axis_unknown`) and throws a C++ exception without options (`C90_axis_empty`).
* The title of an axis with `align` `x` or `y` is placed by the wrong dimension of its text (`C91_title_extent`); the label of
  a category that is listed twice stands where no data go (`C91_duplicate_category`).
* The documented forms `(linear)`, `(log)`, `(inverted)` of scales and `(categorical)` of placements are refused
  (`C92_list_forms_refused`, `C92_placement_list_forms_refused`); `inverted` is ignored on categorical scales
  (`C92_inverted_categorical`) and never undone (`C92_inverted_stays`); `linear` after `categorical` keeps the wider limits
  (`C92_padding_stays`); categories of an earlier list stay accepted (`C92_stale_category`).
* Labels and horizontal grid lines of a plot are drawn upside down (`C94_labels`, `C94_grid`, C63), horizontal error bars are
  slanted (`C94_errorbars`), holes of polygons stay in units of the page (`C94_polygons`).
* In a legend, a first item that is wider than the legend leaves an empty row above it (`C95_wide_first`); the size of the
  marker is ignored in the layout; `border-top` is drawn along the lower edge and `border-bottom` along the upper one, and
  the line style of borders is ignored (`C95_legend` with the definition `LegendPicture`).
* A malformed contour of a glyph is silently cut off (`C100_truncates`); one that starts with a cubic control point aborts
  the program (`C100_accepts`).
* The C interface evaluates nothing and reports success for every text (`C101_eval_ignored`); the declared
  `clip_set_output_format` is not defined.
* Hatching a shape with two zero-length edges never ends (`C62_degenerate_diverges`).
* Text: an empty text is undefined behaviour (`C82_empty_undefined`, `C32_empty_undefined`).
* SVG: quotes in attribute values are escaped as `\"` (`C33_attr_quote`); huge numbers are undefined conversions
  (`C34_large_undefined`).
* Byte buffers lose their bytes when assigned to themselves (`C35_self_assign`); image channels of 128 and more are read
  back negative (`C36_bright_negative`).
* The image export (`page_export_png`, which the command line program does not call) looks at the old styles of shapes only,
  so that it paints nothing but the background (`C108_background_only`); it leaves out curves (`C108_curves`), rounds the
  height down (`C108_fraction`), and keeps the transformation of a text for the shapes after it (`C108_transform_stays`).
* The command line program writes an empty file for PNG and reports success (`C74_png_empty`); exporting is not atomic
  (`C75_not_atomic`).
* Styles: a colour after a hatch does not replace the hatch, and `none` is never undone (`C79_hatch_stays`,
  `C79_none_sticks`).  Parameter walks stop silently after the first parameter without arguments (`C77_stops_at_bare`).
* Hatching: the export of a picture hangs exactly if a hatched shape has two edges of length zero (`C102_hangs_iff`), for
  example a hatched bar with its value at the base line (`C102_bar_hangs`).
* Documented options that are refused: `shapes` of points, `sizes`, `sizes-x` and `sizes-y` of rectangles, `scale`,
  `tick-placement-x`, `tick-placement-y` and `border-syle` (as the manual spells it) of axes, `extra` of the legend
  (`C103_points_shapes`, `C103_rectangles_sizes`, `C103_axes_refused`, `C103_legend_extra`).
* The manual's document options `width`, `height`, `font-defaults`, `background-color`, `foreground-color`,
  `color-palette`, `text-language` and `text-script` have no effect (`C103_document_ignored`), like every other unknown part of
  a plot (`C48_text_ignored`); the manual's notation with parentheses and `;;` is refused (`C103_parentheses`), and so are the
  command line options `--in`, `--out`, `--stdin`, `--stdout`, `--format` and `--font-defaults` (`C103_command_line`).
* The ends of a `size-map` lose millimetres (taken for pixels) and percentages (taken for zero), and the units of `sizes`
  in the data are dropped altogether (`C107_size_map`, `C107_data_size`).
* `Option`: assigning an option with a value to itself reads a destroyed value (`C109_self_assignment`), and an exception during an
  assignment leaves a destroyed value behind (`C109_throw`).  `mkdir_p` reports failure for a new directory whose path ends
  in a slash, although it makes it (`C110_trailing_slash`).
* Output streams: what a short write leaves over is lost without an error (`C112_short_write`), printing 8192 bytes or more to
  a string raises (`C112_long_print`), and a file that the system gives descriptor 0 stays open while an exception says it could not be opened (`C112_descriptor_zero`).
* Values of the manual that are refused: `(categorical)` and `(categorical-bounds)` as layouts, `(linear)`, `(log)`,
  `(logarithmic)`, `(invert)`, `(inverted)` as scale types, colour maps with a pair of parentheses for each stop, and percentages
  as lengths (`C113_category_layouts`, `C113_scale_types_refused`, `C113_color_map_refused`, `C113_units`).
* A label of an axis that is turned (`label-rotate`) is turned about the point to which it is aligned and not about its
  centre, so that it can reach into the plot area (C116_turned_label).
* `File::openFile` ignores the documented flag `O_APPEND`: such a file is overwritten from its beginning
  (C117_append_ignored); `FileUtil::read` does not look at how much was read (C117_short_read), and a failed
  `FileUtil::write` has already emptied the file (C117_failed_write).  `FileUtil::rm` does not report that a file could not
  be removed (C128_rm_silent).
* Two messages advise wrongly: `points` with a CSV file is refused with a message that names `csv` (C120_point_files_fails),
  and the message for line styles omits `dash` and `dashed` (C120_stroke_fails).
* `FileUtil::du_c` skips hidden files and directories (C121_hidden_lost) and reads outside the string for `/`
  (C121_root_undefined).
* Reading a time in a format that leaves out a part reads members that never got a value (`C123_lacking_undefined`), beyond
  the given length (`C123_length_ignored`), and accepts 30 February (`C123_no_such_day`); the random generator aborts on the
  word zero (`C124_zero_aborts`); writing an image to a file that cannot be opened is undefined (`C126_unopened_undefined`).
* Units are dropped from measures that are never converted: `tick-length`, paddings, widths and the lengths of
  patterns given in pt, mm or em are taken as numbers of pixels, so that these plots change with the resolution
  (`C127_ticks`).

Dead code at this commit, modelled or not as stated in section 6: `style_read`, `color_palette_read`,
`svg_add_text_elem_native`, `expr_inspect` (used for messages only).

## 5. Trusted base

* Lean 4.33.0's kernel, and the three axioms `propext`, `Classical.choice`, `Quot.sound` of section 7.  No axiom is added,
  nothing rests on compiled code.
* The faithfulness of the reading of the C++ sources: nothing here was executed.  Section 6 lists the lines that
  were read into the model.
* The statements: the specifications in `lean/Verif/Spec` and those at the head of the property files.
* The assumptions about external code listed in section 2.

