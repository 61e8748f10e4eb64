{"claims": [
 {"property": "C01", "status": "proved", "theorems": ["Verif.C01_column_name_is_odometer", "Verif.C01_column_name_letters", "Verif.C01_column_roundtrip", "Verif.C01_cell_roundtrip", "Verif.C01_cell_abs_roundtrip", "Verif.C01_cell_injective"], "note": ""},
 {"property": "C02", "status": "proved", "theorems": ["Verif.C02_range_roundtrip", "Verif.C02_range_abs_roundtrip", "Verif.C02_single_cell_collapses", "Verif.C02_range_injective"], "note": ""},
 {"property": "C03", "status": "partial", "theorems": ["Verif.C03_quote_form", "Verif.C03_quote_roundtrip", "Verif.C03_quote_injective", "Verif.C03_unquote_quote", "Verif.C03_already_quoted", "Verif.C03_special_characters_quoted", "Verif.C03_cell_names_quoted", "Verif.C03_rc_names_quoted", "Verif.C03_no_panic", "Verif.C03_dotted_name_panics"], "note": "Round-trip, form, injectivity and when quotes are added are proved for every name on which the function returns. Missing: names with a dot before the first digit such as A.1, on which column_name_to_number underflows (debug panic, proved counterexample F9); no panic proved for names without a dot. Unicode tables are a parameter with stated ASCII assumptions."},
 {"property": "C04", "status": "proved", "theorems": ["Verif.C04_accepts_iff_legal", "Verif.C04_save_refuses_clash", "Verif.C04_generated_names_distinct", "Verif.C04_push_then_add_counterexample", "Verif.C04_names_always_legal"], "note": "Accepted iff legal; save fails iff two names are equal ignoring case; generated names never clash without push_worksheet (F12 counterexample with it); every sheet always has a legal name. Lower-casing is a parameter."},
 {"property": "C05", "status": "partial", "theorems": ["Verif.C05_cell_text_roundtrip_partial", "Verif.C05_rich_lookalike_counterexample", "Verif.C05_nonchar_counterexample"], "note": "False for text that looks like <r>...</r> and for U+FFFE/U+FFFF (counterexamples proved)"},
 {"property": "C06", "status": "proved", "theorems": ["Verif.C06_attribute_contained", "Verif.C06_attributes_roundtrip", "Verif.C06_tab_counterexample"], "note": ""},
 {"property": "C07", "status": "proved", "theorems": ["Verif.C07_part_roundtrip", "Verif.C07_content_roundtrip", "Verif.C07_crossed_tags_rejected"], "note": ""},
 {"property": "C08", "status": "partial", "theorems": ["Verif.C08_string_ids_resolve", "Verif.C08_strings_unique", "Verif.C08_count_partial", "Verif.C08_low_memory_count_counterexample"], "note": "ids, uniqueness and uniqueCount: every mode; count attribute: proved for standard and constant memory worksheets, false for low memory ones (F15, counterexample proved)"},
 {"property": "C09", "status": "proved", "theorems": ["Verif.C09_last_write_wins", "Verif.C09_rows_in_order"], "note": ""},
 {"property": "C10", "status": "proved", "theorems": ["Verif.C10_error_exact", "Verif.C10_limit_error_iff", "Verif.C10_refused_changes_no_cell", "Verif.C10_outside_changes_nothing", "Verif.C10_empty_string_counterexample", "Verif.C10_refused_extends_dimensions_counterexample"], "note": "All modes, every sheet reachable in any workbook. Which error is returned depends only on the arguments (Op.refusal). Counterexamples: an empty unformatted string is accepted anywhere (F5); a refused array formula can extend the dimensions (F4)."},
 {"property": "C11", "status": "proved", "theorems": ["Verif.C11_dimension_is_bounding_box", "Verif.C11_top_down_bounding_box", "Verif.C11_top_down_witness", "Verif.C11_first_row_counterexample"], "note": "All worksheets for which rows are written top-down (standard, constant and low memory: C11_top_down_bounding_box), and standard worksheets in any order; histories of accepted cell calls. Counterexample for the whole first row (F35)."},
 {"property": "C12", "status": "proved", "theorems": ["Verif.C12_spans_exact", "Verif.C12_cells_inside_span"], "note": "Standard worksheets (constant-memory rows have no spans), any history."},
 {"property": "C13", "status": "partial", "theorems": ["Verif.C13_style_indices_valid", "Verif.C13_style_list_nodup", "Verif.C13_explicit_format_written_partial", "Verif.C13_unformatted_inherits_row_or_column", "Verif.C13_dynamic_formula_loses_format"], "note": "The explicit-format theorem excludes dynamic array formulas (their format is dropped, counterexample proved) and the F8 row/column reformatting order"},
 {"property": "C14", "status": "partial", "theorems": ["Verif.C14_indices_partial", "Verif.C14_formats_read_back_partial", "Verif.C14_calls_read_back_partial", "Verif.C14_cell_look_partial", "Verif.C14_number_format_ignored", "Verif.C14_unset_hyperlink", "Verif.C14_automatic_solid_fill", "Verif.C14_applied"], "note": "Index assignment and the whole styles part (fonts, fills, borders, numFmts, cellXfs, cellStyles) read back by an independent reader, for formats given as any setter-call sequences, composed with the cell model. Missing, with counterexamples: format string after format index (F68), unset_hyperlink_style (F70), solid fill with one automatic colour (F69), format index 164-255; dxf formats are not read."},
 {"property": "C15", "status": "proved", "theorems": ["Verif.C15_ranges_disjoint", "Verif.C15_overlap_refused", "Verif.C15_accepted_writes", "Verif.C15_saved_cells", "Verif.C15_ranges_read_back"], "note": "Disjointness, validity, refusal of overlaps, the saved cells and the written element, for all histories. What a refused call does to later calls is C49."},
 {"property": "C16", "status": "proved", "theorems": ["Verif.C16_tables_disjoint", "Verif.C16_filters_apart", "Verif.C16_overlap_refused"], "note": "Pairwise apart tables, filters apart from table filters, overlaps not accepted, for every history of calls. What a refused call does to later calls is C49."},
 {"property": "C17", "status": "partial", "theorems": ["Verif.C17_ordered_writes", "Verif.C17_same_rows_partial", "Verif.C17_last_row_twice_counterexample", "Verif.C17_no_data_counterexample", "Verif.C17_format_ahead_counterexample", "Verif.C17_late_array_counterexample", "Verif.C17_late_column_counterexample", "Verif.C17_late_dimension_counterexample"], "note": "Full for calls that write cells with non-decreasing rows, in any workbook, both memory modes (C17_ordered_writes). With row and column settings, cell formats and late calls: same rows as a standard worksheet given the calls that came in time, provided the last row with data has no settings, a worksheet with row settings has data, and the calls are ones constant memory can serve; otherwise false (counterexamples)."},
 {"property": "C18", "status": "partial", "theorems": ["Verif.C18_cells", "Verif.C18_rows_in_order", "Verif.C18_string_ids", "Verif.C18_strings_unique", "Verif.C18_style_indices", "Verif.C18_formats_partial", "Verif.C18_save_leaves_no_trace", "Verif.C18_constant_memory_partial", "Verif.C18_constant_memory_counterexample", "Verif.C18_constant_memory_row_closed_counterexample", "Verif.SaveLists.C18_objects_partial", "Verif.SaveLists.C18_failed_save_counterexample", "Verif.SaveLists.C18_notes_shown", "Verif.SaveLists.C18_show_all_notes_counterexample"], "note": "Cells, string ids, formats: any history of calls and of saves that succeeded or failed at any point, standard worksheets exactly (a save leaves no trace); worksheet objects and relationship lists: histories without a save that failed after its preparation. False in the code (proved): notes, buttons and shapes after such a failed save (F23, F24), constant memory worksheets with settings in the last row (F113), show_all_notes (F114); see also the second_save counterexamples of C33, C50, C51."},
 {"property": "C19", "status": "partial", "theorems": ["Verif.C19_part_names_distinct", "Verif.C19_content_types", "Verif.C19_overrides_exist", "Verif.C19_rels_have_parts", "Verif.C19_relationships", "Verif.C19_image_relationships_partial", "Verif.C19_header_images"], "note": "Proved in full: part names are distinct, every part has the content type of its kind, overrides name only written parts, every rels file belongs to a part, every relationship except images leads somewhere. Image relationships: only if no image is numbered after a header/footer image and hashes do not collide (counterexample C19_header_images)."},
 {"property": "C20", "status": "partial", "theorems": ["Verif.C20_images_partial", "Verif.C20_embedded_partial", "Verif.C20_header_images"], "note": "Pictures, background, header/footer images under HeaderImagesLast and no hash collision; images in cells without the first. The property is false in general: C20_header_images."},
 {"property": "C21", "status": "proved", "theorems": ["Verif.C21_serial_counts_days", "Verif.C21_fictitious_leap_day", "Verif.C21_validation_exact", "Verif.C21_serial_injective", "Verif.C21_serial_1904", "Verif.C21_time_of_day"], "note": "Exact arithmetic: f64 rounding of the time fraction is not modelled"},
 {"property": "C22", "status": "proved", "theorems": ["Verif.C22_timestamp", "Verif.C22_timestamp_range", "Verif.C22_unix_to_serial"], "note": ""},
 {"property": "C23", "status": "proved", "theorems": ["Verif.C23_hash_is_legacy_verifier", "Verif.C23_empty_password", "Verif.C23_nonempty_password_protects", "Verif.C23_attribute_reads_back"], "note": ""},
 {"property": "C24", "status": "proved", "theorems": ["Verif.C24_width_value", "Verif.C24_autofit_bounded", "Verif.C24_width_monotone"], "note": ""},
 {"property": "C25", "status": "partial", "theorems": ["Verif.C25_page_breaks_partial", "Verif.C25_empty_keeps", "Verif.C25_zero_break_counterexample"], "note": "False for a non-empty list of zeros only: the call panics (counterexample proved); proved for every other list"},
 {"property": "C26", "status": "partial", "theorems": ["Verif.C26_levels_count_groups", "Verif.C26_level_at_most_7", "Verif.C26_refused_iff_full", "Verif.C26_declared_max_partial", "Verif.C26_declared_max_counterexample", "Verif.C26_refused_group_is_partial_counterexample"], "note": "Levels/hidden/collapsed are proved in full; the declared maximum is false for level one (counterexample proved) and a refused group is half applied (counterexample proved)"},
 {"property": "C27", "status": "partial", "theorems": ["Verif.C27_anchor_rectangle", "Verif.C27_terminates", "Verif.C27_columns_terminate", "Verif.C27_rows_terminate", "Verif.C27_zero_height_counterexample"], "note": "Anchor equations proved in full; termination needs a default row height of one pixel or more (counterexample proved)"},
 {"property": "C28", "status": "partial", "theorems": ["Verif.C28_attribution_exact", "Verif.C28_attribution_partial", "Verif.C28_single_note_counterexample", "Verif.C28_save_again"], "note": "The property is false in general (F25: ids are given in order of first use but the author list is written sorted). Proved: the comments part parses back to one note per cell with its text, and attribution is right for all notes exactly when the first-use order is increasing; counterexample for every single note by an author before 'Author'; a second save is identical. Texts restricted to those without '_x' and noncharacters; no save between the calls."},
 {"property": "C29", "status": "partial", "theorems": ["Verif.C29_escaped_once", "Verif.C29_accepted_partial", "Verif.C48_links_read_back_partial", "Verif.C29_image_web", "Verif.C29_escaped_twice_counterexample", "Verif.C29_half_escaped_counterexample", "Verif.C29_file_prefix_counterexample", "Verif.C29_object_place_counterexample", "Verif.C29_image_file_partial"], "note": "Accepted exactly within the limits; the written target decodes to the resource, has no refused character, an already escaped one is left alone, escaping twice = once for all texts; image web links. Missing: file links in which file:// occurs again (F76); escapes outside the library's lower-case list are escaped again (F75), half-escaped URLs keep raw characters; places of object links (F77, F78) - counterexamples proved."},
 {"property": "C30", "status": "partial", "theorems": ["Verif.C30_prefixes_partial", "Verif.C30_own_prefixes_partial", "Verif.C30_only_insertions", "Verif.C30_table_refs", "Verif.futureTable_documented", "Verif.C30_quote_counterexample", "Verif.C30_array_constant_counterexample", "Verif.C30_own_function_counterexample"], "note": "Proved for every formula whose literals do not start directly behind a name character and that is not a bare array constant: exact output text. Missing (false of the code, each with a counterexample theorem): string literals directly behind a name character (F41), bare array constants lose a brace (F79), user function names that end in a future name get the prefix inside (F80)."},
 {"property": "C31", "status": "partial", "theorems": ["Verif.C31_names_written_partial", "Verif.C31_user_names_sorted", "Verif.C31_unknown_sheet", "Verif.C31_empty_name_panics", "Verif.C31_bang_in_sheet_counterexample", "Verif.C31_empty_sheet_counterexample", "Verif.C31_apostrophe_panics", "Verif.C31_builtin_order_counterexample"], "note": "Every accepted define_name call and every built-in name is written exactly once with the right scope; user names are sorted case-insensitively; unknown sheets are refused. Partial: names must be well formed (GoodCall), because the code panics on empty names and on a lone apostrophe as the sheet, splits at the first exclamation mark even inside quotes, makes '!x' local to sheet 0, and sorts built-in names with a stray '{}'; each of these is proved as a counterexample."},
 {"property": "C32", "status": "proved", "theorems": ["Verif.C32_cols_exact"], "note": ""},
 {"property": "C33", "status": "partial", "theorems": ["Verif.C33_hidden_rows_partial", "Verif.C33_filter_written", "Verif.C33_filter_column_accepts", "Verif.C33_text_value_counterexample", "Verif.C33_refused_range_counterexample", "Verif.C33_second_save_counterexample"], "note": "Any history of calls, any lower case function and number order; missing: number cells compared with text values, where the property is false (F14)."},
 {"property": "C34", "status": "partial", "theorems": ["Verif.C34_chart_cells_partial", "Verif.C34_unknown_sheet", "Verif.C34_missing_row_counterexample", "Verif.C34_text_number_counterexample", "Verif.C34_secondary_title_counterexample"], "note": "Proved for every history of cell writes, every list of sheets and charts: the part re-reads to the same series, titles, axes and error bars with one cached point per non-empty cell in row-major order. Missing for the full property: custom data label formulas, rows without any cell inside multi-column ranges (F21, counterexample), value ranges whose texts parse as numbers (F89, counterexample), titles of the secondary axes taken from a cell (F90, counterexample). The formatting elements of the part are opaque parameters."},
 {"property": "C35", "status": "partial", "theorems": ["Verif.C35_png", "Verif.C35_jpeg_partial", "Verif.C35_gif", "Verif.C35_bmp_partial", "Verif.C35_unknown_partial", "Verif.C35_accepted", "Verif.C35_short_counterexample", "Verif.C35_truncated_counterexample", "Verif.C35_jpeg_fill_counterexample", "Verif.C35_jpeg_app0_counterexample", "Verif.C35_bmp_topdown_counterexample", "Verif.C35_bmp_core_counterexample"], "note": "Well-formed PNG, GIF, JPEG and BMP files are read with the dimensions and densities they state; unknown buffers of four bytes or more are refused; every accepted buffer has positive dimensions from a header in it. Partial because false: short or truncated buffers panic (F42), JPEG fill bytes (F108) and JFIF extension segments (F109), top-down and core-header BMP files (F110) are misread. Densities are exact rationals."},
 {"property": "C36", "status": "proved", "theorems": ["Verif.C36_columns", "Verif.C36_names_refused", "Verif.C36_cells", "Verif.C36_total_row_panic", "Verif.C36_no_data_row_counterexample"], "note": "Names, column count, refusal of equal names for every table and sheet state; all cell contents in standard mode after any history. Beyond the claim: total row in row 1 without header row panics (F43), header and total row without any data row is accepted (F81)."},
 {"property": "C37", "status": "proved", "theorems": ["Verif.C37_border_sides", "Verif.C37_refused"], "note": ""},
 {"property": "C38", "status": "partial", "theorems": ["Verif.C38_accepted", "Verif.C38_rules_partial", "Verif.C38_priorities", "Verif.C38_ids_distinct", "Verif.C38_extension_partial", "Verif.C38_link_counterexample", "Verif.C38_priority_counterexample", "Verif.C38_icons_counterexample", "Verif.C38_point_counterexample", "Verif.C38_border_counterexample", "Verif.C38_theme_counterexample"], "note": "The parsed worksheet part and styles part give exactly the legal calls (C38_rules_partial, composed with C51's styles); priorities increase from 1; extension list, ids and links (C38_extension_partial). Missing because false: ranges with extended rules first used in other than text order (F34), priorities in the extension list (F97), icon-set settings in the extension (F103, F104), negative border colour (F105), theme colours in scales and bars (F106), lone foreground fills (C51), with sparklines (F39)."},
 {"property": "C39", "status": "proved", "theorems": ["Verif.C39_list_roundtrip", "Verif.C39_limits", "Verif.C39_text_limits", "Verif.C39_comma_counterexample"], "note": ""},
 {"property": "C40", "status": "proved", "theorems": ["Verif.C40_saved_view_valid", "Verif.C40_active_tab", "Verif.C40_hidden_stays_hidden", "Verif.C40_hidden_first_sheet_counterexample", "Verif.C40_later_activation_counterexample", "Verif.C40_stale_first_tab_counterexample"], "note": "Any history including earlier saves gives a valid view; exact account for the first save. Counterexamples F58 (hidden first sheet is shown), F59, F60 proved beside."},
 {"property": "C41", "status": "partial", "theorems": ["Verif.C41_worksheet_parts_partial", "Verif.C41_chartsheet_parts_partial", "Verif.C41_too_many_links", "Verif.C41_chartsheet_notes"], "note": "Worksheets: all combinations with fewer than 65000 relationships; the property is false beyond (C41_too_many_links, ids are counted in a u16). Chartsheets: without notes and buttons (C41_chartsheet_notes)."},
 {"property": "C42", "status": "partial", "theorems": ["Verif.C42_range_format_written_partial", "Verif.C42_range_format_outside_is_lost"], "note": "Proved for every cell whose row lies between two rows holding data; false as stated outside (proved counterexample: such cells are stored but never written). Default format and dynamic formulas excluded."},
 {"property": "C43", "status": "partial", "theorems": ["Verif.C43_merged_format_partial", "Verif.C13_unformatted_inherits_row_or_column", "Verif.C43_intersection_depends_on_order"], "note": "Proved: with only row or only column formats, the last row format else the last column format; with both as first settings, the merge of the two. False as stated otherwise (proved counterexample F8)."},
 {"property": "C44", "status": "partial", "theorems": ["Verif.C31_names_written_partial", "Verif.C44_whole_sheet_counterexample"], "note": "Proved for all histories without a set_print_area over the whole sheet, which is silently ignored and does not undo an earlier print area (counterexample)."},
 {"property": "C45", "status": "partial", "theorems": ["Verif.C45_blocks_distinct", "Verif.C45_shape_ids_partial", "Verif.C45_buttons_counterexample"], "note": "Blocks are always disjoint; shape ids distinct and inside their blocks when buttons fit the blocks reserved for notes; counterexample otherwise (F63). Ids are unbounded naturals in the model (u32 in the code)."},
 {"property": "C46", "status": "partial", "theorems": ["Verif.C46_drawing_objects_partial", "Verif.C46_shape_link_charts", "Verif.C46_anchor", "Verif.C46_chart_link"], "note": "Under the conditions listed at the theorem; each is necessary: C46_shape_link_charts, C46_anchor, C46_chart_link."},
 {"property": "C47", "status": "partial", "theorems": ["Verif.C47_merge_assoc", "Verif.C47_merge_self", "Verif.C47_merge_new", "Verif.C47_merge_overlays_partial", "Verif.C47_merge_loses_hyperlink"], "note": "Laws for all formats; overlay of the looks for a primary whose calls set no property back to its default. The hyperlink mark of the secondary is lost (F74), proved."},
 {"property": "C48", "status": "partial", "theorems": ["Verif.C48_links_read_back_partial"], "note": "Read back through the XML reader and the relationship list for all call sequences. Excluded: characters XML attributes cannot carry (F16) and file links with a second file:// (F76)."},
 {"property": "C49", "status": "partial", "theorems": ["Verif.C15_accepts_all_partial", "Verif.C15_first_overlap_partial", "Verif.C16_first_overlap_partial", "Verif.C15_phantom_panic_counterexample", "Verif.C15_refused_overwrites_counterexample", "Verif.C16_phantom_panic_counterexample", "Verif.C16_refused_filter_counterexample", "Verif.C16_moved_filter_counterexample"], "note": "True as long as no call was refused for an overlap. False afterwards, each with a counterexample theorem: the cells of a refused range stay reserved (F26, F30), a refused merge has overwritten cells (F26), a refused autofilter leaves its name (F28), a moved autofilter keeps its old header (F29)."},
 {"property": "C50", "status": "partial", "theorems": ["Verif.C50_table_parts", "Verif.C50_names", "Verif.C50_default_name_counterexample", "Verif.C50_control_character_counterexample", "Verif.C50_second_save_counterexample", "Verif.C50_second_save_name_counterexample"], "note": "Everything for a first save of tables whose names are free of control characters; a made-up name can clash with a user's (F83), control characters break the part (F82), a second save remaps format numbers twice (F18) and keeps made-up names (F67), each proved."},
 {"property": "C51", "status": "partial", "theorems": ["Verif.C51_dxfs_read_back_partial", "Verif.C51_shared_numbers", "Verif.C51_lone_foreground_counterexample", "Verif.C51_second_save_counterexample"], "note": "First save, with any formats; missing a plain fill with only a foreground colour (F72, proved wrong) and a second save after a new cell number format (F84, proved wrong)."},
 {"property": "C52", "status": "partial", "theorems": ["Verif.C52_total_formula_partial", "Verif.C52_total_cells_partial", "Verif.C52_prefix_in_name", "Verif.C52_quote_in_name"], "note": "In full for names without the call of a future function and without a double quote behind a capital letter, digit or dot; for those the property is false (F44, F148)."},
 {"property": "C53", "status": "partial", "theorems": ["Verif.C53_range_text_partial", "Verif.C53_own_text_partial", "Verif.C53_not_a_range", "Verif.C53_range_accepted", "Verif.C53_no_panic", "Verif.C53_chart_accepted_partial", "Verif.C53_apostrophe_counterexample", "Verif.C53_exclamation_counterexample", "Verif.C53_single_apostrophe_panics", "Verif.C53_long_column_panics", "Verif.C53_not_a_range_counterexample", "Verif.C53_trend_counterexample"], "note": "Texts with ' or ! in the worksheet name, panicking texts, trend limits are false of the code (counterexamples)."},
 {"property": "C54", "status": "partial", "theorems": ["Verif.C54_series_numbers", "Verif.C54_axes_partial", "Verif.C54_pie_column_counterexample"], "note": "Series numbering is proved in full; the axes are proved except for a pie or doughnut chart combined with a chart that has axes, where the property is false (F91, counterexample)."},
 {"property": "C55", "status": "partial", "theorems": ["Verif.C55_accepted_partial", "Verif.C55_sparklines_partial", "Verif.C55_block_counterexample", "Verif.C55_other_side_counterexample", "Verif.C55_extensions_counterexample"], "note": "Groups that do not suit their data are accepted (F95, F96) and together with conditional-format extensions the part is not XML (F39): counterexamples. Formatting attributes and colours are parameters."},
 {"property": "C56", "status": "partial", "theorems": ["Verif.C56_text_partial", "Verif.C56_text_of_errors", "Verif.C56_errors", "Verif.C56_blanks", "Verif.C56_dates_partial", "Verif.C56_values_partial", "Verif.C56_first_cell", "Verif.C56_multi_range", "Verif.C56_multi_first_cell", "Verif.C56_quote_counterexample", "Verif.C56_bytes_counterexample", "Verif.C56_wildcard_counterexample", "Verif.C56_last_month_january_counterexample", "Verif.C56_last_month_february_counterexample", "Verif.C56_next_month_counterexample", "Verif.C56_values_counterexample"], "note": "False for: texts with quotes (F99), non-ASCII texts of begins/ends with (F98), wildcards in contains, the last month in January and February and the next month in November and December (F102), the empty string and strings that start and end with a quote (F101, F115); counterexamples proved. All other cases proved for every cell value and day."},
 {"property": "C57", "status": "partial", "theorems": ["Verif.C57_limits", "Verif.C57_accepted", "Verif.C57_validations", "Verif.C57_list_partial", "Verif.C57_multi_range", "Verif.C57_list_counterexample"], "note": "Limits, acceptance, the element as a reader sees it, replacement, lists of ranges: proved. False in the code: a string with a comma in a list is split (F46); the theorem on lists needs strings without commas. Values (numbers, dates) are texts."},
 {"property": "C58", "status": "partial", "theorems": ["Verif.C58_natural_size", "Verif.C58_set_scale", "Verif.C58_scale_to_size", "Verif.C58_keep_aspect", "Verif.C58_set_size_partial", "Verif.C58_set_size_dpi", "Verif.C58_fit_to_cell_partial", "Verif.C58_set_width_counterexample", "Verif.C58_hidden_cell_counterexample"], "note": "Natural size, scales, scale to size with and without aspect ratio, for every image read from a buffer and resized any number of times; floating point is exact rational arithmetic. Partial because set_width/set_height ignore the density (F111) and a hidden cell is not fitted (F112)."},
 {"property": "C59", "status": "partial", "theorems": ["Verif.C59_page_settings_partial", "Verif.C59_chartsheet_settings_partial", "Verif.C59_witness", "Verif.C59_first_page_lost", "Verif.C59_literal_variable_replaced"], "note": "Proved for worksheets and chartsheets and all sequences of calls, except a first page number other than 1 (F123: useFirstPageNumber gets the number) and texts with '&&[' (F127), which are false in the code."},
 {"property": "C60", "status": "partial", "theorems": ["Verif.C60_view_partial", "Verif.C60_chartsheet_view_partial", "Verif.C60_tab_partial", "Verif.C60_zoom_bounds", "Verif.C60_witness", "Verif.C60_tab_witness", "Verif.C60_selection_lost", "Verif.C60_top_left_stays", "Verif.C60_automatic_tab_coloured"], "note": "Proved except a selection on a sheet with frozen panes (F120), a first cell set back to A1 (F125) and an automatic tab colour beside other sheet properties (F129), which are false in the code."},
 {"property": "C61", "status": "partial", "theorems": ["Verif.C61_protection", "Verif.C61_ranges", "Verif.C61_witness", "Verif.C61_ranges_witness", "Verif.C61_range_name_clash", "Verif.C61_chartsheet_inverted"], "note": "Proved for worksheets, options, passwords and ranges; generated range names may clash (F128) and chartsheets write the inverted rights (F126)."},
 {"property": "C62", "status": "partial", "theorems": ["Verif.C62_ignored_partial", "Verif.C62_page_breaks", "Verif.C62_witness", "Verif.C62_text_years_not_ignored"], "note": "Proved for every kind of error but text years with two digits, whose attribute is misspelled (F37), and for page breaks."},
 {"property": "C63", "status": "partial", "theorems": ["Verif.C63_worksheet_order", "Verif.C63_chartsheet_order_partial", "Verif.C63_chartsheet_print_options", "Verif.C63_chartsheet_ranges", "Verif.C63_sheet_properties_swapped"], "note": "Proved for every worksheet; chartsheets with print options (F119) or editable ranges (F118) have elements that the schema lacks, and the children of sheetPr are in another order than the schema's (F117)."},
 {"property": "C64", "status": "partial", "theorems": ["Verif.C64_cells_read_back", "Verif.C64_cell_format_read_back_partial", "Verif.C64_row_settings_read_back", "Verif.C64_streamed_cells_read_back_partial", "Verif.C64_image_cell_read_back", "Verif.C64_nan_result_counterexample", "Verif.C64_lookalike_counterexample", "Verif.C64_formula_escape_counterexample", "Verif.C64_streamed_outline_counterexample"], "note": "cell contents and row settings: every history in standard mode; formats where C13 holds; constant memory for histories in row order; texts that the code takes for something else are excluded and each exclusion has a proved counterexample (F17, F50, F122, rich look-alike)"},
 {"property": "C65", "status": "partial", "theorems": ["Verif.C65_rich_refused_iff", "Verif.C65_rich_plain_text", "Verif.C65_rich_read_back", "Verif.C65_escape_counterexample", "Verif.C65_length_counterexample"], "note": "runs and fonts read back for every accepted rich string without escape look-alikes; the length limit (F56) and look-alikes (F17) have proved counterexamples"},
 {"property": "C66", "status": "partial", "theorems": ["Verif.C66_cells_follow_history", "Verif.C66_dimensions", "Verif.C66_column_dimensions", "Verif.C66_table_covers_area", "Verif.C66_header_names", "Verif.C66_field_in_its_cell", "Verif.C66_header_in_its_cell", "Verif.C66_field_read_back", "Verif.C66_record_accepted", "Verif.C66_nested_struct_counterexample", "Verif.C66_bare_value_counterexample", "Verif.C66_empty_area_counterexample", "Verif.C66_refused_headers_counterexample", "Verif.C66_table_order_counterexample", "Verif.C66_table_without_records_counterexample", "Verif.C66_bad_headers_refused"], "note": "Proved for every accepted history of cell calls, header calls and records whose fields are scalars (also inside Some/newtypes), single or in nested sequences: the worksheet holds exactly the specified cell calls, the reported dimensions and the tables are the area, each field and header is in its cell (also read back from the saved file), and records that fit are accepted. Partial because the property fails in the code where the counterexamples show (fields after a nested struct are lost, a bare value overwrites the last field, empty area without headers, half-written headers, table order depends on hash order, table without records fails at save) and because column widths, maps/enums with data and the cell effects of non-default tables are left out of the specification."},
 {"property": "C67", "status": "partial", "theorems": ["Verif.C67_workbook_part", "Verif.C67_names_partial", "Verif.C67_element_order", "Verif.C67_save_twice", "Verif.C67_sheet_links", "Verif.C67_control_character", "Verif.C67_tab_in_name", "Verif.C67_name_twice", "Verif.demoBook_saved", "Verif.demoBook_seen"], "note": "All calls that reach workbook.xml, unbounded histories. Partial: names with several exclamation marks and a whole-sheet print area are excluded from the defined-name theorem, texts must be writable in XML (a control character or tab in a sheet name is accepted and breaks the part: C67_control_character, C67_tab_in_name), and other reasons for a save to fail are not modelled."},
 {"property": "C68", "status": "partial", "theorems": ["Verif.C68_core_properties", "Verif.C68_custom_properties", "Verif.C68_app_properties", "Verif.C68_name_titles_partial", "Verif.C68_custom_name_twice", "Verif.C68_carriage_return"], "note": "core.xml and custom.xml in full for texts XML can hold (a carriage return does not survive: F141; a custom name used twice is written twice: F140); list of parts in full for sheets; names in the list of parts unless a define_name argument has several exclamation marks or names a built-in."},
 {"property": "C69", "status": "partial", "theorems": ["Verif.C69_parse_partial", "Verif.C69_refuses_partial", "Verif.C69_no_date", "Verif.C69_rfc3339", "Verif.C69_roundtrip", "Verif.C69_now", "Verif.C69_created", "Verif.C69_overflow_is_zero", "Verif.C69_sixty_minutes", "Verif.C69_zone_drops_seconds", "Verif.C69_garbage_is_zero", "Verif.C69_fraction_text", "Verif.C69_no_date_text"], "note": "Reading, writing and the round trip in full for dates of Excel and times of the day in whole seconds; f64 is abstract (FloatSane). Refusal is partial: too large numbers, garbage and 60 minutes are accepted (F142, F143, F145), a time zone loses the seconds (F144), and some texts are no time stamps (F146, F147)."},
 {"property": "C70", "status": "partial", "theorems": ["Verif.C70_row_partial", "Verif.C70_column_partial", "Verif.C70_row_matrix_partial", "Verif.C70_column_matrix_partial", "Verif.C70_row_shows_partial", "Verif.C70_column_shows_partial", "Verif.C70_row_matrix_shows_partial", "Verif.C70_column_matrix_shows_partial", "Verif.C70_column_overflow"], "note": "Proved for every sheet, mode and data, unless skipped items (None or empty text without a format) carry the counter over the end of u16 (u32 for rows); there it is false (F27, C70_column_overflow). The _shows theorems add what the saved cells show on standard worksheets. Url and Decimal items are not modelled."},
 {"property": "C71", "status": "partial", "theorems": ["Verif.C71_drawing_partial", "Verif.C71_ids_distinct_partial", "Verif.C71_chartsheet", "Verif.demoDrawing_ok", "Verif.demoDrawing_reads"], "note": "partial: texts must be writable (attrSafe: no characters that XML attributes change), see C72 for text boxes"},
 {"property": "C72", "status": "partial", "theorems": ["Verif.C72_box_partial", "Verif.C72_line_valid", "Verif.C72_stops_valid", "Verif.C72_strikethrough_lost", "Verif.C72_last_line_lost", "Verif.C72_gradient_without_stops", "Verif.C72_solid_fill_wins"], "note": "false in the code for strikethrough and right-to-left (F149), refused gradient stops (F150), a line feed at the end (F151) and a fill set after a solid one (F152); proved for everything else; sizes as whole hundredths of a point"},
 {"property": "C73", "status": "partial", "theorems": ["Verif.C73_axes_partial", "Verif.C73_new_axes", "Verif.C73_name_counterexample", "Verif.C73_strike_counterexample", "Verif.C73_interval_counterexample", "Verif.C73_automatic_counterexample", "Verif.C73_date_counterexample", "Verif.C73_value_axis_counterexample", "Verif.C73_bar_scale_counterexample", "Verif.C73_crossing_counterexample", "Verif.C73_side_counterexample"], "note": "The full property is false (F153-F161). Proved for every chart type and every sequence of calls; the conditions in the specification exclude exactly the counterexamples (mixed text and range names, struck fonts, intervals of one, date axes where the primary x axis decides, category numbers on value axes, hidden axes of area, bar and stock charts). The axes of new charts are tied to a separate table by C73_new_axes. Numbers are texts; chart-wide font defaults not modelled."},
 {"property": "C74", "status": "partial", "theorems": ["Verif.C74_series_partial", "Verif.C74_push_counterexample", "Verif.C74_scatter_line_counterexample", "Verif.C74_symbol_counterexample", "Verif.C74_marker_none_counterexample", "Verif.C74_separator_counterexample", "Verif.C74_series_name_counterexample", "Verif.C74_trend_label_counterexample"], "note": "The full property is false (F162-F168). Proved for every chart type, every list of series and every sequence of calls; the conditions in the specification exclude exactly the counterexamples (push_series where new series have a format or marker, scatter formats without a line, markers without a symbol, separators that are blank, labels with only the series name, trendline labels without an equation). Numbers are texts; custom labels from cells not modelled."},
 {"property": "C75", "status": "partial", "theorems": ["Verif.C75_groups_partial", "Verif.C75_spacing_counterexample", "Verif.C75_second_save_counterexample", "Verif.C75_gap_counterexample"], "note": "The full property is false (F169-F171). Proved for every chart type, every list of series on both kinds of axes, every combined chart and every sequence of calls; the condition SpacingClear of the specification excludes exactly the counterexamples (a gap of 150 asked for by a series, and primary spacing that carries over). Numbers of formats are texts."},
 {"property": "C76", "status": "partial", "theorems": ["Verif.C76_chart_partial", "Verif.C76_legend_order_counterexample", "Verif.C76_combined_legend_counterexample"], "note": "The full property is false (F172, F173). Proved for every chart type, every list of series, every combined chart and every sequence of calls; the condition LegendClear excludes exactly the counterexamples (removed entries when secondary series were added before primary ones, or series of the combined chart are removed). Layout numbers are texts."},
 {"property": "C77", "status": "partial", "theorems": ["Verif.C77_chart_order_partial", "Verif.C77_legend_counterexample"], "note": "The order of the elements of the chart part, c:chart, plot area, chart groups and data table is proved for all types and calls; the legend only if it has no format or does not lie over the chart (F174, counterexample). Series are in C78, axes in C79."},
 {"property": "C78", "status": "partial", "theorems": ["Verif.C78_series_order_partial", "Verif.C78_scatter_counterexample", "Verif.C78_marker_counterexample", "Verif.C78_invert_counterexample", "Verif.C78_pie_counterexample"], "note": "Proved for all series whose calls are for charts of their type (SeriesSuits); false otherwise: scatter series with both marker and format (F175), markers, inverted values, trendlines and error bars where the type has none (F176-F178)."},
 {"property": "C79", "status": "partial", "theorems": ["Verif.C79_axis_order_partial", "Verif.C79_date_counterexample"], "note": "Proved for all calls on the axes of all types of charts, except intervals of labels and tick marks on date axes, for which it is false (F179, counterexample)."}
]}
