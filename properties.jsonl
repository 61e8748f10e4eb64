{"id": "C01", "title": "A1 references are a faithful, injective encoding of (row, column)", "statement": "For every column, the name returned by column_number_to_name() is a non-empty string of letters A-Z that column_name_to_number() maps back to the column; for every row and column, row_col_to_cell() (and the $-absolute form) can be read back as exactly that cell, so two different cells never get the same reference.", "quantifier": "all columns 0..65534 (hence all 16384 Excel columns) and all rows below u32::MAX", "why_tests_cant": "There are 1.7e10 cells; tests try a handful of columns around Z/AA/XFD. Bijective base 26 has no zero digit, so boundary errors appear at specific powers.", "anchors": ["src/utility.rs: column_number_to_name, column_name_to_number, row_col_to_cell, row_col_to_cell_absolute"]}
{"id": "C02", "title": "Range strings denote exactly the requested rectangle", "statement": "For every first/last row and column, the string from cell_range() (and cell_range_absolute()) parses back to precisely the two corner cells; a single-cell range collapses to one reference that still denotes the same cell, and different rectangles give different strings.", "quantifier": "all quadruples of row/column numbers", "why_tests_cant": "The collapse to one cell is decided by comparing rendered strings, and quadruples cannot be enumerated.", "anchors": ["src/utility.rs: cell_range, cell_range_absolute", "src/worksheet.rs: CellRange::to_range_string"]}
{"id": "C03", "title": "Quoting a sheet name for a reference is lossless", "statement": "For every sheet name accepted by set_name(), quote_sheet_name() yields either the name itself or a single-quoted form with apostrophes doubled, and a reader of quoted references recovers exactly the original name; names containing anything but letters, digits, underscore, dot or emoji are always quoted; already quoted names are left alone.", "quantifier": "all sheet names (any Unicode string)", "why_tests_cant": "Sheet names are arbitrary Unicode text; embedded apostrophes and names looking like A1/R1C1 references are combinatorial.", "anchors": ["src/utility.rs: quote_sheet_name, unquote_sheetname, split_cell_reference, is_emoji"]}
{"id": "C04", "title": "Sheet names are accepted exactly when Excel allows them, and a workbook with clashing names is never written", "statement": "set_name()/check_sheet_name() succeed exactly for non-empty names of at most 31 characters with none of * ? : [ ] \\ / and not starting or ending with an apostrophe; save() fails if two sheets have names that are equal ignoring case and otherwise does not fail for that reason.", "quantifier": "all Unicode names, all lists of worksheets in a workbook", "why_tests_cant": "The rule is a conjunction over arbitrary strings and the uniqueness check ranges over all pairs of sheets.", "anchors": ["src/utility.rs: check_sheet_name, validate_sheetname", "src/worksheet.rs: set_name", "src/workbook.rs: save_internal"]}
{"id": "C05", "title": "Cell text survives the shared-string encoding", "statement": "For every string written to a cell, decoding the <si> element of the shared strings part (XML entities, then Excel's _xHHHH_ escapes, and XML whitespace rules) yields the original string: including control characters, literal text that looks like an _xHHHH_ escape, markup characters and leading/trailing white space.", "quantifier": "all strings of XML-representable characters, any length", "why_tests_cant": "Interaction of the two escaping layers (a literal _x0041_ next to a control character) is a property of all concatenations; tests cover isolated cases.", "anchors": ["src/xmlwriter.rs: escape_xml_escapes, escape_xml_data, match_xml_char, xml_si_element", "src/shared_strings.rs: write_sst_strings"]}
{"id": "C06", "title": "Attribute values survive XML escaping", "statement": "For every attribute value the library writes (sheet names, tool tips, defined names, ...), the value cannot terminate the attribute or the tag, and an XML parser recovers it, provided the value has no tab, carriage return, control characters or U+FFFE/U+FFFF.", "quantifier": "all strings", "why_tests_cant": "Injection-safety is a universally quantified statement about strings.", "anchors": ["src/xmlwriter.rs: escape_attributes, match_attribute_html_char, IntoAttribute::write_to"]}
{"id": "C07", "title": "Properly nested writer calls produce well-formed XML that parses back to the same tree", "statement": "Any tree of elements, attributes and text emitted through the start-tag / end-tag / empty-tag / data-element writers is parsed by an XML reader into the same tree; text or attribute values can never create, close or alter elements.", "quantifier": "all finite element trees with XML names as tags, arbitrary attribute values and text", "why_tests_cant": "Trees are unbounded in depth and width.", "anchors": ["src/xmlwriter.rs: xml_start_tag, xml_end_tag, xml_empty_tag, xml_data_element"]}
{"id": "C08", "title": "Shared string indices always resolve to the string that was written", "statement": "After any sequence of string writes over any number of worksheets, every string cell's index points at the entry of the written shared-string part holding that string; equal strings share one index, different strings never do; the entries are numbered 0..uniqueCount-1 without gaps and count equals the number of string cells.", "quantifier": "all sequences of string insertions (any order, any repetition)", "why_tests_cant": "The table is a hash map iterated in arbitrary order and re-sorted at save; correctness is an invariant over histories.", "anchors": ["src/shared_strings_table.rs: shared_string_index", "src/shared_strings.rs: write_sst_strings", "src/worksheet.rs: update_string_table_ids"]}
{"id": "C09", "title": "Last write wins and every cell is written once, in row-major order", "statement": "After any sequence of cell writes the <sheetData> section contains each written cell exactly once, holding the data of the last successful write to that cell, with rows strictly increasing and columns strictly increasing within each row.", "quantifier": "all finite sequences of writes, in any order, to any cells", "why_tests_cant": "Operation histories are unbounded; tests write a few cells mostly in order.", "anchors": ["src/worksheet.rs: insert_cell, store_number_type, store_string, write_sheet_data, write_data_table"]}
{"id": "C10", "title": "Writes outside the grid are refused and change no cell", "statement": "A cell write (other than an empty string without a format, which is ignored) returns RowColumnLimitError if and only if its row is >= 1048576 or its column >= 16384, in which case nothing changes; every call fails exactly for the reasons its own arguments give, and a refused call changes no cell.", "quantifier": "all row/column pairs and all prior states", "why_tests_cant": "State-independence of the refusal is over all states.", "anchors": ["src/worksheet.rs: check_dimensions, check_dimensions_only, store_number_type, store_string"]}
{"id": "C11", "title": "The sheet dimension covers exactly the bounding box of what was written", "statement": "After any sequence of accepted cell calls the <dimension> reference is the bounding box of the written cells (and A1 for an empty sheet), the single exception being a box that is exactly the whole first row.", "quantifier": "all sequences of writes", "why_tests_cant": "Invariant over histories; includes the sentinel initial values and the special-cased A1:XFD1 box.", "anchors": ["src/worksheet.rs: check_dimensions, write_dimension"]}
{"id": "C12", "title": "Row span attributes cover the cells of each 16-row block", "statement": "For every sheet, the spans attribute written for a row is the 1-based min:max of the columns used in the 16-row block containing that row, so every cell of the row lies inside its span.", "quantifier": "all sets of written cells", "why_tests_cant": "Blocks are accumulated in one pass with a carried state; errors show at block boundaries and sparse rows.", "anchors": ["src/worksheet.rs: calculate_spans"]}
{"id": "C13", "title": "A cell's style index resolves to the format it was written with", "statement": "After any sequence of formatted writes on any number of worksheets (each with its own local table) and any workbook-level registration, the xf index emitted for a cell denotes, in the workbook's final format list, a format equal to the one passed in; unformatted cells get the default format.", "quantifier": "all sequences of format registrations over all worksheets", "why_tests_cant": "Two-level index remapping over arbitrary histories.", "anchors": ["src/worksheet.rs: format_xf_index, set_global_xf_indices, get_cell_xf_index", "src/workbook.rs: format_xf_index, save_internal"]}
{"id": "C14", "title": "Fonts, fills, borders and number formats are de-duplicated without confusion", "statement": "For every list of cell formats, the font/fill/border/number-format index given to each format selects, in the corresponding list of the style part, an entry equal to that format's own property; indices are below the count written; fills 0 and 1 are the two predefined ones and user number formats start at 164.", "quantifier": "all lists of formats", "why_tests_cant": "De-duplication over all lists; a swapped index only shows with particular repetition patterns.", "anchors": ["src/workbook.rs: prepare_fonts, prepare_fills, prepare_borders, prepare_num_formats"]}
{"id": "C15", "title": "Accepted merge ranges never overlap", "statement": "After any sequence of merge_range() calls, the accepted ranges are pairwise disjoint, each has at least two cells and lies within the grid with ordered corners; a call that would overlap an accepted range is refused.", "quantifier": "all sequences of merge calls", "why_tests_cant": "Pairs of ranges over histories.", "anchors": ["src/worksheet.rs: merge_range"]}
{"id": "C16", "title": "Accepted tables never overlap", "statement": "After any sequence of add_table() calls the accepted table ranges are pairwise disjoint, and a worksheet autofilter never shares a header cell with a table's autofilter.", "quantifier": "all sequences of add_table/autofilter calls", "why_tests_cant": "Pairs of ranges over histories.", "anchors": ["src/worksheet.rs: add_table, autofilter"]}
{"id": "C17", "title": "Constant-memory mode writes the same cells as standard mode", "statement": "For every sequence of cell writes with non-decreasing rows, a constant-memory worksheet emits the same rows and cells in the same order as a standard worksheet; writes to rows already flushed are ignored and do not disturb other rows.", "quantifier": "all row-ordered write sequences, any number of rows", "why_tests_cant": "Streaming equivalence is over unbounded sequences with gaps, write-ahead rows and row options.", "anchors": ["src/worksheet.rs: insert_cell, flush_to_row, flush_last_row, write_data_row"]}
{"id": "C18", "title": "A workbook can be edited and saved again", "statement": "Whatever calls of save() were made before, and whether they succeeded or failed, the next save() writes exactly the current content: every cell reads as the last call left it with its own string and format, each note, button, shape, image and relationship is written once, and a save without edits in between writes the same cells, string table and formats as the one before.", "quantifier": "all histories of edits, successful saves and failed saves of any length, all worksheet modes", "why_tests_cant": "Any number of interleaved edits and saves, with a failure possible at several points of each save.", "anchors": ["src/workbook.rs: save_internal, reset, prepare_drawings, prepare_vml", "src/worksheet.rs: reset, update_string_table_ids, prepare_vml_objects, prepare_worksheet_shapes, flush_last_row", "src/packager.rs: write_worksheet_file, write_vml_files", "src/drawing.rs: write_two_cell_anchor"]}
{"id": "C19", "title": "The package is closed: every relationship target exists and every part has a content type", "statement": "For every workbook composition (sheets, chartsheets, drawings, charts, tables, comments, vml, images, metadata ...), each relationship in a .rels part targets a part that is written, each written part has a content type by override or default, and part names are pairwise different.", "quantifier": "all numbers and mixtures of sheets and objects", "why_tests_cant": "Independent counters in the packager must agree for all combinations.", "anchors": ["src/packager.rs: assemble_file, write_content_types_file, write_workbook_rels_file, write_worksheet_rels_file", "src/content_types.rs"]}
{"id": "C20", "title": "Every image reference points at the media file holding that image's bytes", "statement": "For every placement of images (worksheet, background, embedded, header/footer) over any number of sheets, with duplicates removed by content, the media part referenced from a drawing contains the bytes of the inserted image.", "quantifier": "all placements of images over all sheets", "why_tests_cant": "Two independent passes number images; agreement is over all combinations.", "anchors": ["src/workbook.rs: prepare_drawings, prepare_embedded_images", "src/packager.rs: write_image_files", "src/worksheet.rs: prepare_worksheet_images, prepare_header_footer_images"]}
{"id": "C21", "title": "Dates convert to the Excel serial number of the Gregorian calendar", "statement": "For every date from 1900-01-01 to 9999-12-31 the serial number is the number of days since 1899-12-31, plus one after Excel's fictitious 1900-02-29; consecutive days differ by one; validation accepts exactly real dates plus 1900-02-29 and 1899-12-31.", "quantifier": "all dates in the Excel range, all u16/u8 triples for validation", "why_tests_cant": "2.9 million dates with 4/100/400 leap rules, in the 1900 epoch; tests sample.", "anchors": ["src/datetime.rs: to_excel_from_ymd_hms, validate_ymd, is_leap_year"]}
{"id": "C22", "title": "Unix timestamps convert to the right calendar date and time", "statement": "For every timestamp in the accepted range the date parts are those obtained by advancing the Gregorian calendar day by day from 1970-01-01 (backwards for negative stamps), with hour/minute/second the sexagesimal split of the remaining seconds; the result always passes date validation.", "quantifier": "all timestamps from 1899-12-31 to 9999-12-31", "why_tests_cant": "2.5e11 timestamps; block arithmetic by 400/100/4/1 years.", "anchors": ["src/datetime.rs: from_timestamp, unix_time_to_date_parts"]}
{"id": "C23", "title": "The worksheet password hash is the ECMA-376 legacy hash", "statement": "For every password the 16-bit verifier equals the specified rotate-and-xor hash over its bytes with length and constant 0xCE4B, an empty password gives no protection hash, and the value always fits in four hex digits.", "quantifier": "all byte strings", "why_tests_cant": "Bit-level equality over all byte strings of any length.", "anchors": ["src/utility.rs: hash_password"]}
{"id": "C24", "title": "Auto-fit widths are bounded and monotone", "statement": "For every string pixel_width() is at most 1790 pixels (so the 16-bit sum never overflows), appending a character never decreases it, and cell_autofit_width() never overflows.", "quantifier": "all strings", "why_tests_cant": "A bound over all strings of any length.", "anchors": ["src/utility.rs: pixel_width, cell_autofit_width"]}
{"id": "C25", "title": "Page breaks are stored sorted, unique, non-zero and limited", "statement": "For every list of page breaks, an accepted call stores exactly the set of non-zero requested breaks, strictly increasing, at most 1023 of them and all below the row/column limit; otherwise an error is returned and the old breaks are kept.", "quantifier": "all lists of break positions", "why_tests_cant": "Set equality over all lists.", "anchors": ["src/worksheet.rs: set_page_breaks, set_vertical_page_breaks, process_pagebreaks"]}
{"id": "C26", "title": "Outline levels count the enclosing groups and never exceed 7", "statement": "After any sequence of row (column) grouping calls, a row's level is the number of accepted groups that contain it, capped at Excel's 7, the declared maximum level is at least every row's level, and every row of the group is marked.", "quantifier": "all sequences of group_rows/group_columns calls", "why_tests_cant": "Nested/overlapping groups over histories.", "anchors": ["src/worksheet.rs: group_rows, set_grouped_rows, set_grouped_row, set_grouped_columns"]}
{"id": "C27", "title": "Objects are anchored at the requested pixel rectangle", "statement": "For every image/chart/shape offset and size and every assignment of row heights and column widths, the from/to anchors satisfy: the pixels before the from-cell plus the from-offset equal the requested position, the pixels before the to-cell plus the to-offset equal position plus size, and offsets are smaller than the cell they are in.", "quantifier": "all offsets and sizes, all row-height/column-width functions with positive default", "why_tests_cant": "Loops over arbitrary sequences of cell sizes.", "anchors": ["src/worksheet.rs: position_object_pixels"]}
{"id": "C28", "title": "Each note is attributed to its own author", "statement": "For every set of notes, the author id written for a note selects that note's author in the written author list.", "quantifier": "all sequences of notes and author names", "why_tests_cant": "Ordering of a sorted map against insertion-order ids depends on the names.", "anchors": ["src/worksheet.rs: prepare_vml_objects", "src/comment.rs: write_authors, write_comment"]}
{"id": "C29", "title": "URLs are percent-escaped losslessly and at most once, and limits are enforced", "statement": "For every URL, escaping leaves no character that Excel refuses, percent-decoding the escaped URL returns the original, a URL that is already escaped is left alone, and links or anchors longer than 2080 characters or tips longer than 255 are refused.", "quantifier": "all URL strings", "why_tests_cant": "Universal over strings.", "anchors": ["src/url.rs: escape_strings, is_escaped, initialize", "src/xmlwriter.rs: escape_url, match_url_char"]}
{"id": "C30", "title": "Future functions are prefixed outside strings and nothing else changes", "statement": "For every formula, Formula::new() inserts _xlfn. (and _xlws.) exactly in front of each known future function name that is directly followed by an opening bracket outside string literals and copies everything else; a formula that already contains _xlfn. is unchanged; dynamic functions are detected.", "quantifier": "all formula strings", "why_tests_cant": "State machine over arbitrary text.", "anchors": ["src/formula.rs: Formula::new, escape_formula, copy_escaped_formula, future_functions"]}
{"id": "C31", "title": "Defined names are scoped to the right sheet and sorted", "statement": "For every set of defined names and sheets, a name of the form Sheet!Name gets the index of the sheet with that name, an unknown sheet is an error, global names get no index, and the written list is sorted by name (case-insensitively) and is a permutation of what was defined.", "quantifier": "all lists of names and sheets", "why_tests_cant": "Sorting and lookup over all lists.", "anchors": ["src/workbook.rs: define_name, save_internal, write_defined_names", "src/worksheet.rs: DefinedName"]}
{"id": "C32", "title": "Column records cover each changed column once with its own settings", "statement": "For every set of column settings the <cols> records are disjoint, ordered ranges and expanding them gives every changed column exactly its width/format/hidden/level settings and no other column.", "quantifier": "all maps from columns to options", "why_tests_cant": "Run-length grouping over all maps.", "anchors": ["src/worksheet.rs: write_cols, write_col"]}
{"id": "C33", "title": "Autofilter hides exactly the data rows that fail the filter", "statement": "For every worksheet and filter conditions, when the workbook is saved a row is written as hidden exactly if it was hidden by a call or it is a data row of the autofilter range with a filtered column whose cell does not satisfy the condition of that column; no other row setting and no cell changes. The autoFilter element states the range and, per column, the condition that was set; filter_column accepts a condition exactly for the columns of the range.", "quantifier": "all histories of calls (cell writes, tables, row hiding and unhiding, autofilter, filter_column, filter_automatic_off), all conditions built by the FilterCondition calls", "why_tests_cant": "Cross product of cell types, criteria, values, rows and call orders.", "anchors": ["src/filter.rs: FilterCondition", "src/worksheet.rs: autofilter, filter_column, hide_autofilter_rows, row_matches_list_filter, row_matches_custom_filter, write_auto_filter"]}
{"id": "C34", "title": "Charts show the current values of the cells they refer to", "statement": "On save, every data range a chart refers to (series values, categories, series names, chart and axis titles, custom error bars) is written with its absolute sheet reference and a cache listing, for each cell of the range in row-major order, the value that cell currently holds on the referenced sheet; cells that hold nothing get no point but keep their place in the numbering. Saving fails exactly when a chart refers to a sheet the workbook does not have.", "quantifier": "all sequences of cell writes, all sheets of the workbook, all charts and all ranges, including ranges on other sheets and overlapping ranges", "why_tests_cant": "Sparse tables over all ranges, and every combination of series, titles and error bars sharing ranges.", "anchors": ["src/worksheet.rs: get_cache_data", "src/workbook.rs: prepare_chart_cache_data, insert_chart_ranges_to_cache, update_chart_ranges_from_cache", "src/chart.rs: write_cat, write_val, write_num_cache, write_str_cache, write_tx_formula"]}
{"id": "C35", "title": "Image headers are read without reading outside the buffer", "statement": "For every well-formed PNG, GIF, BMP or JPEG byte buffer, creating an image from it succeeds and reports the width, height and density (dots per inch) that the file states; an accepted buffer always has positive dimensions taken from a header it contains; every other buffer gives an error, never a panic.", "quantifier": "all byte buffers: all chunk sequences of PNG files, all segment sequences of JPEG files, all sizes and densities, all trailing bytes", "why_tests_cant": "Parsing loop over arbitrary bytes; sample images cover a handful of chunk sequences.", "anchors": ["src/image.rs: new_from_buffer, process_image, process_png, process_jpg, process_bmp, process_gif", "src/image.rs: unpack_u32_from_be_bytes"]}
{"id": "C36", "title": "Table columns have unique names and the header cells show them", "statement": "For every table, add_table() accepts it only if column names are pairwise different ignoring case, defaults fill unnamed columns, the number of columns equals the range width, and the data rows lie between header and total row.", "quantifier": "all tables and ranges", "why_tests_cant": "All name lists.", "anchors": ["src/table.rs: initialize_columns, first_data_row, last_data_row", "src/worksheet.rs: add_table"]}
{"id": "C37", "title": "A border drawn round a range puts each side exactly on the cells of that edge", "statement": "For every range, set_range_format_with_border() gives each cell the border format's top side if and only if it is in the first row, bottom iff last row, left iff first column, right iff last column, and the cell format's own side otherwise; all other properties come from the cell format.", "quantifier": "all ranges (single cell, row, column, rectangle) and all formats", "why_tests_cant": "16 position classes times all ranges.", "anchors": ["src/worksheet.rs: set_range_format_with_border, set_range_border_cell, set_range_border_row, set_range_border_col, set_range_border_range, combined_border_format"]}
{"id": "C38", "title": "Conditional formats are in the file as they were added", "statement": "add_conditional_format is accepted exactly for a range of the grid and a complete rule within its limits, and a refused call changes nothing. The worksheet part has exactly the accepted rules, the ranges in the order of first use and in each range in call order, each with its kind, values, formulas, points, colours, stop flag and what its format changes, with priorities 1, 2, 3, ... in that order. The extension list describes exactly the rules of Excel 2010 (data bars, icon sets) with all that was set, with ids that are all distinct (in the workbook), and each rule names the id of its own extended rule.", "quantifier": "all sequences of add_conditional_format calls, on any number of worksheets, with any rules and formats", "why_tests_cant": "Rules are grouped by range, numbered in two passes with different iteration orders and their formats deduplicated over the workbook; each combination of calls is a different history.", "anchors": ["src/worksheet.rs: add_conditional_format, write_conditional_formats, write_conditional_formattings, write_x14_conditional_formattings", "src/conditional_format.rs: validate, rule, x14_rule"]}
{"id": "C39", "title": "Data-validation lists read back as the items given, within Excel's limits", "statement": "For every list of items without commas, allow_list_strings() stores a formula string literal that reads back as exactly those items; lists over 255 characters, titles over 32 and messages over 255 are refused.", "quantifier": "all lists of strings", "why_tests_cant": "Quote doubling and joining over all lists.", "anchors": ["src/data_validation.rs: allow_list_strings, set_input_title, set_input_message, set_error_title, set_error_message"]}
{"id": "C40", "title": "Sheet activation leaves a consistent view", "statement": "For every interleaving of set_active/set_selected/set_hidden/set_very_hidden/set_first_tab calls on any number of sheets, also with saves in between, a saved workbook's active tab is an existing sheet that is selected and visible, and no hidden sheet is selected; at the first save the active tab is the last sheet left activated by its own calls (the first sheet if there is none) and every other sheet is selected/hidden exactly as its own calls left it.", "quantifier": "all sequences of visibility calls over all sheets", "why_tests_cant": "Histories over flags.", "anchors": ["src/workbook.rs: set_active_worksheets", "src/worksheet.rs: set_active, set_selected, set_hidden, set_very_hidden"]}
{"id": "C41", "title": "Worksheet relationship ids match the relationship file", "statement": "For every combination of hyperlinks, drawings, legacy drawings, background image and tables on a sheet, the rId written in the sheet XML for an object is the id under which the sheet's .rels part lists that object's target.", "quantifier": "all combinations and numbers of objects", "why_tests_cant": "Two independent counters must agree.", "anchors": ["src/worksheet.rs: write_hyperlinks, write_drawing, write_legacy_drawing, write_picture, write_table_parts", "src/packager.rs: write_worksheet_rels_file", "src/relationship.rs"]}
{"id": "C42", "title": "Formatting a range formats every cell of the range", "statement": "After set_range_format() on any rectangle inside the grid, every cell of the rectangle appears in the saved sheet with that format (merged into a blank if it held no data).", "quantifier": "every history of calls followed by a range-format call on any rectangle", "why_tests_cant": "depends on the relation of the rectangle to everything written before and after", "anchors": ["src/worksheet.rs:set_range_format", "src/worksheet.rs:insert_cell_format", "src/worksheet.rs:write_data_table"]}
{"id": "C43", "title": "The format of a cell at a formatted row and column is determined by the last row and column formats, not by call order of unrelated settings", "statement": "For every history of row/column option calls, an unformatted cell written afterwards takes the row's last format if the row has one, else the column's last format.", "quantifier": "every interleaving of set_row_format/set_column_format/height/width calls and unformatted writes", "why_tests_cant": "depends on the whole history of option calls for that row and column", "anchors": ["src/worksheet.rs:set_row_format", "src/worksheet.rs:set_column_format", "src/worksheet.rs:insert_cell"]}
{"id": "C44", "title": "Print areas, repeat rows/columns and autofilter areas read back as what was asked", "statement": "For every sequence of set_print_area, set_repeat_rows, set_repeat_columns and autofilter calls on any sheets with any legal names, the built-in defined names in the workbook part are one per feature in use, scoped to that sheet, and their text, read as a sheet-qualified reference, is exactly the area of the last accepted call.", "quantifier": "all sheet names and all call histories", "why_tests_cant": "Whole-row, whole-column, single-cell and general areas combine with quoted and unquoted sheet names; only a proof covers all of them.", "anchors": ["src/worksheet.rs: set_print_area, set_repeat_rows, set_repeat_columns, autofilter, DefinedName::set_range", "src/workbook.rs: set_package_options, write_defined_names"]}
{"id": "C45", "title": "VML shape ids are unique in the workbook and lie in the blocks their part claims", "statement": "For every combination of notes and buttons over the sheets, the shapes of the legacy drawing parts have pairwise different ids, the id blocks claimed by different parts are disjoint, and each shape id lies in a block of 1024 that its own part claims.", "quantifier": "all numbers of sheets, notes and buttons", "why_tests_cant": "The block arithmetic must work for all counts, in particular across multiples of 1024.", "anchors": ["src/workbook.rs: prepare_vml", "src/worksheet.rs: prepare_vml_objects", "src/vml.rs: assemble_xml_file"]}
{"id": "C46", "title": "A drawing shows the objects put on the sheet, in order, with their images, charts and links", "statement": "For every sheet with images, charts and shapes, a reader that follows the sheet's drawing reference finds one object per inserted object, images first, then charts, then shapes, each in insertion order; each picture leads to the bytes inserted, each chart frame to the inserted chart, and each link to the address given.", "quantifier": "all numbers and mixtures of images, charts, shapes and links on a sheet, all positions of the sheet in the workbook", "why_tests_cant": "The relationship ids of a drawing are shared between images, links, charts and shapes through a map keyed by hash or address, so agreement depends on the whole combination.", "anchors": ["src/worksheet.rs: prepare_worksheet_images, prepare_worksheet_charts, prepare_worksheet_shapes", "src/drawing.rs", "src/packager.rs: write_drawing_rels_file"]}
{"id": "C47", "title": "Merging two formats overlays them", "statement": "Format::merge(primary, secondary) gives every property its value in the primary if the primary changed it from the default, else its value in the secondary; merging is associative, a format merged with itself or with a new format is unchanged, and the merged format read back from the styles part shows this overlay.", "quantifier": "all pairs and triples of formats built by any sequences of setter calls", "why_tests_cant": "The laws range over all formats and all orders of merging; tests compare a few pairs.", "anchors": ["src/format.rs: Format::merge, merge_with, merge_fill, merge_font, merge_border, merge_alignment"]}
{"id": "C48", "title": "Every cell's hyperlink leads where its last accepted URL leads", "statement": "After any sequence of write_url() calls the sheet's hyperlinks element has exactly one entry per cell with an accepted URL, in row order, whose relationship resolves to the target of the last accepted URL for that cell, with its place inside the target and its tip.", "quantifier": "all sequences of write_url calls with any texts and tips, whatever else the cells hold", "why_tests_cant": "Relationship ids are assigned while iterating a map over arbitrary histories of calls.", "anchors": ["src/worksheet.rs: store_url, write_hyperlinks, write_hyperlink", "src/url.rs: parse_url, increment_rel_id"]}
{"id": "C49", "title": "Refused merges, tables and filters leave no trace", "statement": "For every history of calls, a merge_range(), add_table() or autofilter() call whose arguments are valid and whose range meets no accepted range is accepted, and the first one that does meet one is refused naming a range it meets, with no panic and no effect on later calls.", "quantifier": "all histories of merge_range/add_table/autofilter/cell calls, all ranges", "why_tests_cant": "The outcome of a call depends on the whole history of accepted and refused calls.", "anchors": ["src/worksheet.rs: merge_range, add_table, autofilter"]}
{"id": "C50", "title": "Every table part says what was asked for", "statement": "When a workbook with tables is saved, there is one table part per table, numbered 1, 2, ... in order of sheets and insertion; each part reads back as the table's range, name, filter, header and total rows, style switches, columns (name, label, function, formula) and the number of the format selected for each column; names are pairwise different ignoring case; and the save is refused exactly when two names agree.", "quantifier": "all lists of worksheets with any tables, ranges, names, columns and formats", "why_tests_cant": "Ids, made-up names and format numbers depend on every table on every worksheet.", "anchors": ["src/workbook.rs: prepare_tables", "src/worksheet.rs: prepare_worksheet_tables", "src/table.rs: assemble_xml_file, write_table, write_table_column"]}
{"id": "C51", "title": "Formats of tables and conditional formats select what was asked for", "statement": "For every workbook, the number that each conditional format or table column ends up with selects, in the saved styles part, a differential format that changes exactly what the user's format asks for (bold, italic, strike-through, underline, font colour, number format, fill, the four borders, checkbox); equal formats share a number and different ones never do; cell formats still read back; and no number format id stands for two codes anywhere in the part.", "quantifier": "all lists of cell formats, all sequences of formats given to conditional formats and tables on any number of worksheets, built by any setter calls", "why_tests_cant": "Local and global numbers depend on every format on every worksheet and on the cell formats that share number format ids.", "anchors": ["src/worksheet.rs: format_dxf_index, set_global_dxf_indices", "src/workbook.rs: format_dxf_index, prepare_num_formats, prepare_borders, save_internal", "src/styles.rs: write_dxfs, write_font, write_fill, write_border", "src/format.rs: has_dxf_font, has_dxf_fill"]}
{"id": "C52", "title": "Total functions of tables sum up the column they stand under", "statement": "For every history of calls and every table that add_table() accepts with a total row, the saved cell of the total row under a column with a total function and no total label is a plain formula SUBTOTAL(n,[column]) in which n is the number of that function and [column], read as a structured reference, is exactly the name of that column in the table, whatever characters the name has.", "quantifier": "all histories of calls, all tables, all column names and all total functions", "why_tests_cant": "Column names are arbitrary texts; escapes, quotes and brackets combine without bound.", "anchors": ["src/table.rs:TableColumn::total_function", "src/worksheet.rs:add_table", "src/formula.rs:Formula::new"]}
{"id": "C53", "title": "Chart ranges given as text mean the range the user wrote, and illegal charts are refused", "statement": "For every text that reads as a cell range of a worksheet (Sheet1!$A$1:$B$2, with or without =, quotes and anchors), the chart range made from it is exactly that worksheet and those cells; the text the library itself writes for a range is understood as that range; inserting a chart succeeds exactly if it has a series and every series' value (and category) range is legal and its trend line is within the documented limits; no text makes the library panic.", "quantifier": "all texts, all ranges, all charts", "why_tests_cant": "The set of texts is infinite (names with any characters, quoting, anchors); each needs the right reading.", "anchors": ["src/chart.rs: ChartRange::new_from_string, ChartRange::validate, Chart::validate", "src/utility.rs: column_name_to_number, is_valid_range", "src/worksheet.rs: insert_chart_with_offset"]}
{"id": "C54", "title": "Series and axis numbering of a chart is consistent", "statement": "In every chart part the series are numbered 0,1,2,... without gap or repetition in document order (primary series, then secondary series, then those of a combined chart), idx equal to order; every axis a chart group says it is drawn on is defined in the same part, exactly once, no two axes share an id and each axis crosses another axis of the part that crosses it back.", "quantifier": "all charts: any mix of primary, secondary and combined series of any chart type, any chart number in the workbook", "why_tests_cant": "The numbering depends on the interleaving of primary/secondary series and of combined charts, for any number of series.", "anchors": ["src/chart.rs: write_plot_area, write_series, write_ax_ids, add_axis_ids, write_cat_axis, write_val_axis"]}
{"id": "C55", "title": "Sparklines are in the cells and show the ranges that were asked for", "statement": "add_sparkline is accepted exactly for a cell in the grid and a legal one-dimensional data range; add_sparkline_group exactly for a row or column of cells with as many cells as rows (or columns) of a legal two-dimensional range; a refused call changes nothing. The worksheet's extension list is well-formed XML and has for every accepted call one group, in which the cells in order show the range (the rows or columns of the data in order), with the date range if one was set.", "quantifier": "all sequences of sparkline calls with any cells, ranges, worksheet names and orientation", "why_tests_cant": "The slices are computed by mutation step by step, for any size of the group and either orientation.", "anchors": ["src/worksheet.rs: add_sparkline, add_sparkline_group, write_extensions, write_sparkline_groups, write_sparkline_group, write_sparklines", "src/sparkline.rs: add_cell_range, add_group_range", "src/chart.rs: ChartRange::set_baseline, increment, is_1d, is_2d"]}
{"id": "C56", "title": "Rules on texts, dates, blanks, errors and values apply to the cells they are meant for", "statement": "The formula that a conditional format on texts, dates, blanks or errors puts in the file, computed as Excel computes formulas, is true of exactly those cells of the range that the rule describes: the cells whose text contains, does not contain, begins or ends with the given text; whose date is yesterday, today, tomorrow, in the last seven days, or in the last, this or next week or month; that are blank or not; that are errors or not. A string given as the value of a cell rule is that string for Excel. The formulas are written for the first cell of the first range, and all ranges given by set_multi_range are in the file.", "quantifier": "all rules, all texts, all ranges and lists of ranges, all cells, all cell values, all days for today", "why_tests_cant": "The meaning of a formula ranges over all cell contents and all days; tests compare the formula text with files made by Excel and never compute it.", "anchors": ["src/conditional_format.rs: ConditionalFormatText, ConditionalFormatDate, ConditionalFormatBlank, ConditionalFormatError, ConditionalFormatCell, ConditionalFormatValue::quote_string, set_multi_range, range_to_anchor"]}
{"id": "C57", "title": "Data validations in the file are those that were added", "statement": "A data validation can be made exactly if its titles, messages and list are within Excel's limits, and is accepted exactly for a range in the grid. A reader of the worksheet finds for every range (or list of ranges) exactly one validation, that of the last accepted call, with the type, operator, values, flags, titles, messages and error style that were last set; refused calls and validations that do nothing leave no trace. A list of strings is offered as exactly those strings, and a list of ranges covers the given ranges.", "quantifier": "all sequences of calls, all settings in any order, all texts, all ranges", "why_tests_cant": "Settings are overwritten in any order and validations replace each other under the text of their range.", "anchors": ["src/data_validation.rs: DataValidation, allow_*, set_*", "src/worksheet.rs: add_data_validation, write_data_validations, write_data_validation, write_data_validation_any"]}
{"id": "C58", "title": "Images are shown at the size that was asked for", "statement": "An image is shown at the size its file states (pixels corrected for density) until it is resized; a scale multiplies that size; set_width/set_height, set_scale_to_size and insert_image_fit_to_cell show it at the requested size, and with the aspect ratio kept it fits the requested size, touches it in one direction and is not distorted, whatever resizing calls came before.", "quantifier": "all accepted images (any dimensions and densities), all sequences of resizing calls, all target sizes and cells", "why_tests_cant": "Real-valued arithmetic over all densities, sizes and call sequences.", "anchors": ["src/image.rs: set_width, set_height, set_scale_width, set_scale_height, set_scale_to_size, width_scaled, height_scaled", "src/worksheet.rs: insert_image_fit_to_cell"]}
{"id": "C59", "title": "Page settings reach the file", "statement": "For every sequence of page-setup calls on a worksheet or chartsheet (paper, orientation, order, scale or fit-to-pages, margins, first page number, centring, print gridlines/headings/black-and-white/draft, header, footer and their options) a reader of the written part finds exactly the settings of the last accepted call of each kind, with defaults for those never set; header and footer variables such as &[Page] mean the same as their short codes.", "quantifier": "all sequences of settings calls, all texts for header, footer and margins, all other contents of the sheet", "why_tests_cant": "Each setting is written only if some 'changed' flag was raised by some call, and the scale/fit settings cancel each other: only sequences expose a lost update.", "anchors": ["src/worksheet.rs: set_paper_size, set_landscape, set_print_scale, set_print_fit_to_pages, set_margins, set_header, set_footer, set_print_first_page_number, write_page_setup, write_page_margins, write_print_options, write_header_footer"]}
{"id": "C60", "title": "View and tab settings reach the file", "statement": "For every sequence of view calls a reader of the sheet finds the gridlines, direction, view mode, zoom, first visible cell, frozen panes (with the first cell next to them), selection in the active pane, tab colour and outline symbol positions of the last accepted calls; a zoom is accepted exactly between 10 and 400 and a print scale exactly between 10 and 400.", "quantifier": "all sequences of settings calls, all cells, zooms and colours", "why_tests_cant": "Frozen panes, selection and first cell share one element whose pane and selection children depend on all of them; combinations are unbounded.", "anchors": ["src/worksheet.rs: set_freeze_panes, set_freeze_panes_top_cell, set_selection, set_top_left_cell, set_zoom, set_view_*, set_right_to_left, set_screen_gridlines, set_tab_color, group_symbols_*, write_sheet_view, write_panes, write_selections, write_sheet_pr"]}
{"id": "C61", "title": "Sheet protection grants exactly the requested rights", "statement": "A reader finds a sheet protected if and only if a protect call was made, with exactly the rights of the last options and the verifier of the last password; the ranges that may be edited are exactly those of the accepted unprotect_range calls, in order, with their names and passwords.", "quantifier": "all sequences of calls, all sets of options, all ranges, names and passwords", "why_tests_cant": "There are 2^16 combinations of options with inverted default attributes, and unboundedly many ranges and passwords.", "anchors": ["src/worksheet.rs: protect, protect_with_password, protect_with_options, unprotect_range, unprotect_range_with_options, write_sheet_protection, write_protected_ranges, write_protected_range"]}
{"id": "C62", "title": "Ignored errors and page breaks reach the file", "statement": "For every kind of error, the ranges in which a reader ignores it are exactly those of the accepted ignore_error/ignore_error_range calls for that kind, in order; repeated or malformed ranges are refused. The manual page breaks a reader finds are the worksheet's, across all columns or rows, with right counts.", "quantifier": "all sequences of calls, all ranges, all kinds of error, all sets of breaks", "why_tests_cant": "Ranges of one kind are accumulated in one attribute text; any number of calls may be interleaved.", "anchors": ["src/worksheet.rs: ignore_error, ignore_error_range, write_ignored_errors, write_ignored_error, write_row_breaks, write_col_breaks"]}
{"id": "C63", "title": "Elements of a sheet come in the order of the schema", "statement": "Whatever the settings and contents of a worksheet or chartsheet, the child elements of its part are elements of the schema's sequence, in the schema's order, each at most once (except conditional formats); likewise the children of its sheet properties. Excel rejects files in another order.", "quantifier": "all sequences of settings calls and all combinations of other contents", "why_tests_cant": "Each of about 27 elements is present or not depending on state: 2^27 combinations.", "anchors": ["src/worksheet.rs: assemble_xml_file, write_sheet_pr"]}
{"id": "C64", "title": "The text of the cells and rows reads back as what was written", "statement": "After any sequence of calls and a save, the <sheetData> section and the shared strings part of every worksheet are well-formed XML, and a reader of these two texts finds in every cell exactly the value, formula, result and style of the last call that affected it (numbers as written, strings and booleans as given, error values as errors, array formulas with their range), finds no other cells, and finds every row with its height, hidden state and format.", "quantifier": "all sequences of calls on any number of worksheets in standard and constant memory mode, all texts, numbers and formulas", "why_tests_cant": "The text depends on the whole history, on the string table order and on arbitrary user text (markup characters, control characters, look-alikes of escapes, of numbers and of rich text).", "anchors": ["src/worksheet.rs: write_number_cell, write_string_cell, write_inline_string_cell, write_formula_cell, write_array_formula_cell, write_blank_cell, write_boolean_cell, write_error_cell, write_table_row, write_constant_table_row, write_data_table", "src/shared_strings.rs: assemble_xml_file", "src/xmlwriter.rs"]}
{"id": "C65", "title": "Rich strings read back run by run", "statement": "write_rich_string refuses a list of segments exactly when it is empty, has an empty segment or is longer than Excel's limit; an accepted rich string that is the last write to its cell is read from the saved file as the same list of runs: the same texts in the same order, each with every font property of its format.", "quantifier": "all lists of (format, text) segments, all histories of calls", "why_tests_cant": "Segments, fonts and texts are unbounded, and the markup goes through the shared string table where it must not be confused with plain strings.", "anchors": ["src/worksheet.rs: write_rich_string, get_rich_string, store_rich_string", "src/styles.rs: write_font", "src/shared_strings.rs: write_sst_string"]}
{"id": "C66", "title": "Serialized records go to the columns of their headers, row after row", "statement": "After serialize_headers (with format or options, from a value or a type) or set_serialize_headers for a struct at (row, col), and any number of serialize calls with records of it (single or in vectors, interleaved with other structs and cell writes), the i-th shown field of the j-th record is in column col+i of row row+j (one further down if headers are written) with the value format given for the field; each header is in the first row with its own format or that of the header row; fields without a column and structs without headers write nothing; a later header call for the struct starts a new area; get_serialize_dimensions and get_serialize_column_dimensions report exactly the area, and a requested table covers it; a record that fits is accepted.", "quantifier": "all histories of header calls (any options: custom, renamed, skipped, custom only, hidden headers), records and cell writes, all structs, fields, values and positions", "why_tests_cant": "The place of a record depends on the whole history of header and serialize calls for its struct; tests check a few short histories.", "anchors": ["src/serializer.rs: SerializerState, current_state, set_current_struct, get_dimensions, get_column_dimensions, get_tables, impl Serializer for &mut Worksheet, SerializerHeader", "src/worksheet.rs: store_serialization_headers_with_options, store_custom_serialization_headers, serialize_to_worksheet_cell, store_serialized_tables"]}
{"id": "C67", "title": "The workbook part lists the sheets, names and active tab asked for", "statement": "When a workbook is saved, xl/workbook.xml is well-formed XML in which a reader finds exactly the sheets created by the calls, in order, each under the last legal name given to it (or the generated one), with ids 1..n, the visibility its calls left it in (the active sheet is visible), and a relationship id that leads to that sheet's own part; the active tab is the sheet left active; the defined names are those of define_name and of the filters, print areas and repeated rows/columns; the read-only recommendation and VBA name are the ones requested; the elements come in schema order; and saving again writes the same part.", "quantifier": "every finite history of calls that add, push, rename, hide, activate and select sheets, set filters, print areas and repeated rows/columns, define names, set VBA names and the read-only recommendation, with any texts writable in XML, with fewer than 65000 sheets", "why_tests_cant": "the histories, names and numbers of sheets are unbounded, and each part of the file depends on the interaction of many earlier calls", "anchors": ["src/workbook.rs: assemble_xml_file, write_sheets, write_sheet, write_workbook_view, write_defined_names, write_file_version, write_workbook_pr, write_file_sharing, add_worksheet, add_chartsheet, push_worksheet, define_name, set_active_worksheets, save_internal", "src/worksheet.rs: set_name, set_active, set_hidden", "src/utility.rs: validate_sheetname, validate_vba_name"]}
{"id": "C68", "title": "Document properties are saved as set, and the list of parts matches the workbook", "statement": "In the saved file docProps/core.xml, docProps/app.xml and docProps/custom.xml are XML documents in which every property set with DocProperties has the value it was given last (author, title, subject, keywords, comment, category, status, manager, company, hyperlink base, creation time); custom properties appear once per call, in order, with their type and value and ids 2, 3, ...; app.xml lists the worksheets, then the chartsheets that are not very hidden, then the visible defined names in the order of the workbook part (names local to a sheet with the sheet they belong to), its heading pairs and vector sizes give exactly the numbers listed, and it is marked read-only exactly if that was recommended.", "quantifier": "all sequences of DocProperties calls and of workbook and worksheet calls, with any texts that XML can hold", "why_tests_cant": "Titles and headings depend on the whole history of sheets, visibility and names; the texts are arbitrary strings.", "anchors": ["src/properties.rs:DocProperties", "src/core.rs:Core", "src/custom.rs:Custom", "src/app.rs:App", "src/packager.rs:write_app_file", "src/worksheet.rs:DefinedName::app_name"]}
{"id": "C69", "title": "Dates given as text are the dates meant, and time stamps are RFC 3339", "statement": "ExcelDateTime::parse_from_str reads a date (yyyy-mm-dd), a time (hh:mm, hh:mm:ss, hh:mm:ss.sss) or both with a T or a space between them and perhaps a Z, in white space, as exactly that date and time if Excel can represent it, and otherwise returns an error. The time stamp that the library writes for a date and time (document properties) is a W3CDTF/RFC 3339 text of the same date and time, the library reads it back as the same date and time, and a file whose creation date was not set gives the calendar date and time of day of the moment its properties were made.", "quantifier": "all texts, all dates and times, all Unix times until the end of the year 9999", "why_tests_cant": "The input is an arbitrary text; leading zeros, white space, separators and the calendar combine without bound.", "anchors": ["src/datetime.rs:parse_from_str", "src/datetime.rs:and_hms", "src/datetime.rs:to_rfc3339", "src/datetime.rs:unix_time_to_rfc3339", "src/datetime.rs:utc_now", "src/core.rs:write_dcterms_created"]}
{"id": "C70", "title": "Rows, columns and blocks of data", "statement": "write_row, write_column, write_row_matrix and write_column_matrix (and the forms with a format) do what the single writes would do: item i of a row goes to the cell i columns to the right of the first one, item i of a column to the cell i rows below it, and every other cell stays as it was. None and empty texts without a format take up a cell and leave it alone. If an item is refused, the call returns the error of the first such item, the items before it are written and nothing after it is.", "quantifier": "every sequence (of sequences) of data of any length, every first cell, with and without a format, every worksheet in every mode with any history", "why_tests_cant": "the length and shape of the data, the position of the first refused item and the history of the worksheet are unbounded", "anchors": ["src/worksheet.rs: Worksheet::write_row, write_row_with_format, write_column, write_column_with_format, write_row_matrix, write_column_matrix, IntoExcelData"]}
{"id": "C71", "title": "Objects of a drawing", "statement": "Each image, chart and text box put on a worksheet is in the drawing part exactly once and in order, between the cells and offsets computed for it, with the movement asked for, its own name (or a numbered default), alternative text, link and tip, decorative flag, and the relationship of its picture or chart; no two objects of a drawing have the same number; the drawing of a chartsheet holds its one chart.", "quantifier": "every list of objects, with every placement, name, text, link and option", "why_tests_cant": "the objects, their texts and options combine without bound, and names and tips are arbitrary text that has to survive escaping", "anchors": ["src/drawing.rs: write_two_cell_anchor, write_pic, write_graphic_frame, write_c_nv_pr, write_absolute_anchor", "src/worksheet.rs: prepare_worksheet_images, prepare_worksheet_charts"]}
{"id": "C72", "title": "Text boxes", "statement": "A text box shows the text asked for, one paragraph for each line, with the alignment, direction, font, fill (none, solid, pattern or gradient with its stops and angle), line (colour, width to the nearest quarter point, dash, transparency) and linked cell asked for; settings that are out of range are refused.", "quantifier": "every text, font, fill, line and colour, and every sequence of line settings", "why_tests_cant": "texts, colours, transparencies, stops and their combinations cannot be enumerated", "anchors": ["src/drawing.rs: write_sp, write_shape_text, write_a_ln, write_color, write_a_grad_fill", "src/shape.rs: ShapeFormat, ShapeLine, ShapeGradientFill, ShapeFont", "src/color.rs: chart_scheme"]}
{"id": "C73", "title": "Axes of charts", "statement": "Each axis of a saved chart shows what the calls on it asked for: the title (text, font, direction, place), the side, the direction, hidden or not, major and minor grid lines with their lines, the place of the labels, tick marks, number format, fill and line, and font; a value axis its maximum, minimum, base of logarithms, units, display unit and where the other axis crosses; a category axis its label alignment and intervals; a date axis its scale and time units. The last call of a kind wins, and what was not asked for is as in a new chart of the type.", "quantifier": "every chart type, every combination of primary, secondary and combined series, every sequence of calls on the four axes with every text, number, colour, font and format", "why_tests_cant": "the calls, their order and their values, and the interplay of the two axes of a pair cannot be enumerated", "anchors": ["src/chart.rs: write_cat_ax, write_date_ax, write_val_ax, write_cat_val_ax, write_scaling, write_ax_pos, write_disp_units", "src/chart.rs: ChartAxis setters", "src/chart.rs: Chart::initialize_*_chart"]}
{"id": "C74", "title": "Formatting of chart series", "statement": "Each series of a saved chart shows what the calls on it asked for: its fill and line, its marker (symbol, size, format), the formats of single points, its data labels (what they show, separator, place, number format, font, format) and those of single points (text, deleted, font), its trendline (kind, name, periods, equation, label), its error bars (kind, side, caps, value, format), the fill of negative values, and whether its line is smooth. The last call of a kind wins, calls that are refused change nothing, and what was not asked for is as in a new series of that type of chart. The formatting of one series does not show on another.", "quantifier": "every chart type, every list of series on primary and secondary axes and in a combined chart, every sequence of calls on each with every text, number, colour, font and format", "why_tests_cant": "the calls, their order, their values and the series they are on cannot be enumerated", "anchors": ["src/chart.rs: write_series, write_scatter_series, write_marker, write_d_pt, write_data_labels, write_custom_data_labels, write_trendline, write_error_bar", "src/chart.rs: ChartSeries, ChartMarker, ChartDataLabel, ChartTrendline, ChartErrorBars setters", "src/chart.rs: Chart::add_series, Chart::push_series"]}
{"id": "C75", "title": "Chart groups", "statement": "The groups of series of a saved chart look as the calls asked: the kind, direction, grouping and style are those of the type of chart; the gap and the overlap of bars are the last ones asked for by a series of that group; the angle of the first slice, the hole, the drop lines, the high-low lines and the up-down bars, with their formats, are the last ones asked for, and are there only for the types of chart that have them. There is one group for the series on the primary axes and one for those on the secondary axes, and the same of a combined chart.", "quantifier": "every chart type, every list of series on primary and secondary axes and in a combined chart, every sequence of calls on the chart and on each series", "why_tests_cant": "the series, the axes they are on, the calls, their order and values cannot be enumerated", "anchors": ["src/chart.rs: write_chart_type and the writers of the groups", "src/chart.rs: write_series (gap, overlap), write_gap_width, write_overlap, write_drop_lines, write_hi_low_lines, write_up_down_bars", "src/chart.rs: Chart::set_rotation, set_hole_size, set_drop_lines, set_high_low_lines, set_up_down_bars, ChartSeries::set_gap, set_overlap"]}
{"id": "C76", "title": "A chart as a whole", "statement": "A saved chart has the style, the legend (place, layout, overlay, format, font, removed entries), the data table, the layout and format of the plot area, the format of the chart area, and the way of showing hidden cells, empty cells and #N/A that the calls on it asked for; the last call of a kind wins, calls that are refused change nothing, and what was not asked for is as in a new chart. A series or trendline that is removed from the legend is not shown there, and all others are. A chart on a protected chartsheet is protected.", "quantifier": "every chart type, every list of series, every combined chart, every sequence of calls", "why_tests_cant": "the calls, their order, their values and the series cannot be enumerated", "anchors": ["src/chart.rs: assemble_xml_file, write_chart, write_plot_area, write_legend, write_legend_entry, write_d_table, write_disp_blanks_as", "src/chart.rs: deleted_legend_entries", "src/chart.rs: ChartLegend, ChartDataTable, ChartPlotArea, ChartArea setters"]}
{"id": "C77", "title": "The elements of a chart part are in the order of the schema", "statement": "When a workbook with charts is saved, the children of the root of a chart part, of c:chart, of the plot area, of each chart group and of the data table are elements the schema of DrawingML charts allows there, in the order it prescribes, and each occurs at most once unless it may be repeated (series, axis ids, groups, axes); so are those of the legend, unless it has a format and lies over the chart.", "quantifier": "all types of charts, all series and combined charts, all sequences of calls on the chart, its legend, data table, plot area and chart area, all cell contents behind the ranges", "why_tests_cant": "which elements are written depends on the type of the chart and on many options that are independent of each other; tests compare a few of the combinations with files made by Excel, and Excel refuses a whole workbook for one element in the wrong place", "anchors": ["/repo/src/chart.rs:assemble_xml_file", "/repo/src/chart.rs:write_chart", "/repo/src/chart.rs:write_plot_area", "/repo/src/chart.rs:write_bar_chart", "/repo/src/chart.rs:write_line_chart", "/repo/src/chart.rs:write_legend", "/repo/src/chart.rs:write_data_table"]}
{"id": "C78", "title": "The elements of a series are in the order of the schema for its type of chart", "statement": "When a workbook with charts is saved, the children of each c:ser element are elements that the schema allows for a series of that chart group (bar, line, area, pie, radar, scatter), in the order it prescribes, and each occurs at most once unless it may be repeated (points, error bars of scatter charts), for all calls on the series that make sense for that type of chart.", "quantifier": "all types of charts, all series on primary and secondary axes and in combined charts, all sequences of calls on the series, all cell contents behind the ranges", "why_tests_cant": "one function writes the series of all types of charts but scatter charts; which of the elements are there depends on the calls, and the order allowed depends on the type; tests cover a few combinations only, and two of them that no test covers are not in order", "anchors": ["/repo/src/chart.rs:write_series", "/repo/src/chart.rs:write_scatter_series", "/repo/src/chart.rs:ChartSeries"]}
{"id": "C79", "title": "The elements of an axis are in the order of the schema for its kind", "statement": "When a workbook with charts is saved, the children of each category, date and value axis, and of its scaling element, are elements the schema of DrawingML charts allows there, in the order it prescribes, each at most once, and at most one of c:crosses and c:crossesAt is there, for all calls on the axes but intervals of labels and tick marks on date axes.", "quantifier": "all types of charts, primary and secondary axes, combined charts, all sequences of calls on the axes, all cell contents behind the names of the axes", "why_tests_cant": "every element of an axis is there or not depending on calls that are independent of each other, on the type of the chart and on the calls on the other axis; tests compare a few combinations", "anchors": ["/repo/src/chart.rs:write_cat_ax", "/repo/src/chart.rs:write_date_ax", "/repo/src/chart.rs:write_val_ax", "/repo/src/chart.rs:write_cat_val_ax", "/repo/src/chart.rs:write_scaling"]}
