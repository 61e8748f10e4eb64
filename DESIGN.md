# Formal model of rust_xlsxwriter in Lean 4 — design

## What is being proved, and about what

`/repo` is a Rust library that writes `.xlsx` files.  It cannot be built or run
here, so the theorems are about a hand-written Lean model of its logic.  Each
definition under `lean/Verif/Model/` cites the file and lines it models and states its
simplifications.  `lean/Verif/Spec/` holds the small independent specifications
(what a reader of the file format does, what the calendar is, what "bounding
box" means...).  `lean/Verif/Props/` holds the property theorems, one file per
group, with non-vacuity examples beside them.  Lemmas live in `lean/Verif/Lemmas/`
or beside the model.

## Trusted base

* Lean 4.33.0's kernel and elaborator (that statements mean what they say).
* Axioms: only `propext`, `Classical.choice`, `Quot.sound` (no axioms of our own; no
  compiled-code axioms).  vcheck prints the axioms of each theorem in the manifest.
* The reading of the Rust source: every model definition was transcribed by hand.
* Strings are modelled as `List Char` (Unicode scalar values); Rust strings are UTF-8
  bytes.  Where byte offsets matter (slicing at byte positions) the definition says so.
* Integers are `Nat`/`Int` unless the property is about overflow; where the Rust code
  would overflow/underflow a fixed width type the model either carries the guard
  explicitly (`Option`/error = panic) or the property file proves the value stays in range.
* Not modelled: the `zip` crate and compression, file I/O, actual thread scheduling in
  the packager (worksheets are assembled in parallel by independent, read-only work),
  floating point rounding and number-to-text formatting (`ryu`/`zmij` features), the
  `chrono`/`jiff` adaptors, parts of the chart XML (see C34, C53, C54 for what is modelled),
  VML text, theme text, the regular-expression engine (its matched language is modelled).

## Method

Four shapes: round-trips against an independent *reader*; invariants by induction over
arbitrary operation lists; refinement to a trivial abstract map; decision logic stated
outright.  If the source violates the property we prove the negation with a concrete
witness (theorem named `..._false` / `..._counterexample`) and a `_partial` theorem with
the precise extra hypothesis.

## Per-property plan

| id | modelled | how proved |
|----|----------|-----------|
| C01 | `column_number_to_name`, `column_name_to_number`, `row_col_to_cell(_absolute)` | bijective base-26 induction; independent A1 reader; round-trip => injectivity |
| C02 | `cell_range(_absolute)` | range reader splitting at ':'; round-trip |
| C03 | `quote_sheet_name`, `unquote_sheetname`, `split_cell_reference`; `char::is_alphanumeric`, `to_uppercase` are parameters | independent reference reader; round-trip; case analysis |
| C04 | `check_sheet_name`, duplicate check in save | decision logic `iff`; list induction; lower-casing a parameter |
| C05 | `escape_xml_escapes`, `escape_xml_data`, `write_si_element`, `SharedStrings` | reader = entity decoder then `_xHHHH_` decoder; induction on text.  False for `<r>...</r>` text (F1) |
| C06 | `escape_attributes`, attribute writer | entity decoder; induction.  Control characters excluded (F16) |
| C07 | `xml_start_tag`, `xml_end_tag`, `xml_empty_tag`, `xml_data_element`, ... | independent recursive-descent XML reader; mutual tree induction |
| C08 | `SharedStringsTable`, `store_string`, sst writer | invariant over op lists |
| C09 | `insert_cell` over `BTreeMap<RowNum, BTreeMap<ColNum, CellType>>`, `write_sheet_data` traversal | refinement of nested ordered maps to `(row,col) -> Option cell`; sortedness invariant |
| C10 | `check_dimensions` + store functions | decision logic; frame lemma |
| C11 | `check_dimensions` bookkeeping (both memory modes), `write_dimension` | fold = bounding box (min/max); constant memory: histories that go down the sheet |
| C12 | `calculate_spans` | min/max over blocks, list induction |
| C13 | local `format_xf_index`, `Workbook::format_xf_index`, prepare_format_properties | invariant: index map & list agree; lookups resolve |
| C14 | `prepare_fonts/fills/borders/num_formats` | same dedup invariant with offset |
| C15 | `merge_range` cell map | invariant over histories; F26 documented |
| C16 | `add_table` cell map | as C15 |
| C17 | constant memory `insert_cell`, `flush_data_row`, `flush_to_row`, `flush_last_row`, all calls on cells, rows and columns, in a workbook of sheets of all modes | both modes simulate one machine on decoded data; full for row-ordered cell writes; with row/column settings and late calls under the conditions of `C17_same_rows_partial`, counterexamples F6/F7/F55 and late arrays/column formats |
| C18 | Model/Saves (cells: what each way a `save()` can end leaves behind) and Model/SaveLists (the per-save lists of a worksheet) | the workbook invariant of C08/C09/C13 is preserved by every ending of a save; preparing a prepared workbook is the identity; an invariant "nothing left over" for the lists; counterexamples for failed saves and constant memory |
| C19 | packager/content types/relationships (part name level) | set inclusion for any composition |
| C20 | image de-dup by hash; ids | map invariant; F13 negative witness |
| C21 | `ExcelDateTime` ymd -> serial | recursive calendar spec, induction over days |
| C22 | `ExcelDateTime::from_timestamp` | as C21, loop invariants |
| C23 | `hash_password` | BitVec fold vs independent rotate-xor spec |
| C24 | `pixel_width`, `cell_autofit_width` | fold bounds / monotonicity |
| C25 | `process_pagebreaks` | sort + dedup lemmas; F33 panic witness |
| C26 | `group_rows`/`group_columns` | count of enclosing groups by induction; F20 |
| C27 | `position_object_pixels` | loop invariant on prefix sums |
| C28 | note author ids | negative witness (F25) + partial for sorted insertion |
| C29 | `Url` escaping and limits | percent decoder; induction |
| C30 | `escape_formula` | independent segment spec; tokeniser induction (F41 excluded) |
| C31 | `prepare_defined_names` | permutation + sortedness + scoping |
| C32 | `<cols>` writer | run-length expand = original map |
| C33 | `FilterCondition`, `autofilter`, `filter_column`, `hide_autofilter_rows`, row hiding calls, `autoFilter` element (Model/Filter.lean) | meaning of a condition and the filter state of a history stated in Spec/Filter.lean; invariant over any history (with tables and cell writes), loop invariant for the hiding; element read back through the XML round trip; `str::to_lowercase` and the comparison of numbers are parameters; counterexamples F14, F87, F88 |
| C34 | cache collection (`get_cache_data`, `prepare_chart_cache_data`), the data elements of the chart part (`write_cat/val/x_val/y_val`, caches, titles, error bars) over opaque formatting elements; `parses` stands for `parse::<f64>().is_ok()` | save, write the part, re-read it with an independent reader: equals the chart meant over the cells shown (`C34_chart_cells_partial`); failure iff unknown sheet; F21, F89, F90 counterexamples |
| C35 | `Image::new_from_buffer`, `process_image`, the PNG/JPEG/GIF/BMP readers (Model/Image.lean) | file formats as byte strings with arbitrary chunks and segments (Spec/Image.lean); induction over chunks/segments; source of dimensions for any accepted buffer by induction over the loop; F42, F108–F110 counterexamples |
| C36 | `Table` column set up | list invariants |
| C37 | `set_range_format_with_border` | case analysis on edges |
| C38 | `add_conditional_format`, all rule kinds of conditional_format.rs, `write_conditional_formats`, the conditional-format extension list | accepted iff legal; the parsed part has exactly the legal calls, grouped by range, with priorities and what their format changes (through the styles part, C51); ids distinct and linked; F34/F97/F103-F106 counterexamples |
| C39 | `allow_list_strings` | split/join round-trip |
| C40 | active sheet bookkeeping | invariant |
| C41 | rId numbering | list index equality |
| C42 | `set_range_format`, `insert_cell_format` inside the cell model | reader of the sheet; counterexample F54, positive part by the cell-map refinement |
| C43 | `set_row_format`, `set_column_format` inside the cell model | history determines the inherited format; counterexample F8 |
| C44 | `set_print_area`, `set_repeat_*`, `autofilter` and their defined names | reference reader over the written names |
| C45 | `prepare_vml`, `VmlDrawing` ids | block arithmetic, induction over sheets |
| C46 | drawing parts: anchors, pictures, frames, links | reader following relationships through the package |
| C47 | `Format::merge` and the four component merges | algebraic laws; last-call semantics of the setters |
| C48 | `store_url`, `write_hyperlinks`, `increment_rel_id` (Model/Url.lean) | reader resolves the ids of the element against the relationship list; induction over calls |
| C49 | `merge_range`, `add_table`, `autofilter` over histories | exactness of the reserved cell map while nothing was refused; counterexamples after a refusal (F26, F28-F30) |
| C50 | `prepare_tables`, `prepare_worksheet_tables`, `Table::assemble_xml_file` (Model/TablePart.lean) | reader of the table part (Spec/TablePart.lean) composed with the XML round trip; induction over sheets and tables; counterexamples F18, F67, F82, F83 |
| C51 | `format_dxf_index`, dxf part of `save_internal`, `prepare_num_formats`, `write_dxfs` (Model/Dxf.lean) | reader of `dxfs` (Spec/Dxf.lean) composed with C14 and the XML round trip; index table invariant; counterexamples F72, F84 |
| C52 | Total rows of tables | `total_function` with the escape of the column name, through `Formula::new`, into the cell of the total row; a reader of `SUBTOTAL(n,[column])` with the escapes of structured references | induction on the name; C30 (what `Formula::new` changes), C36 (columns and cells of a table) |
| C54 | `write_plot_area`, `write_series`, `add_axis_ids`, the axis elements | numbering read back from the part is 0,1,2,…; axes used are defined once and cross in pairs; F91 counterexample |
| C53 | `ChartRange::new_from_string`, `validate` of ranges and charts (chart.rs) | any text that reads as a range gives that range; the library's own texts are read back; a range or chart is accepted iff legal; F45/F47/F92/F93/F94 counterexamples |
| C55 | `add_sparkline`, `add_sparkline_group`, `add_group_range`, the sparkline extension list | accepted iff legal, refused = unchanged; the parsed extension list has one group per legal call with the cells and slices meant; F39/F95/F96 counterexamples |
| C56 | the formulas of text, date, blank and error rules, `quote_string`, `set_multi_range`, `range_to_anchor`; a separate specification of the formula language (tokens, parser, functions, calendar) | the formula is tokenized and computed for any reference and text, and its value compared with the rule for every cell value and day; F98, F99, F101, F102, F115 counterexamples |
| C57 | `DataValidation` and its calls, `add_data_validation`, the `dataValidations` element; values are texts | an invariant relates the fields to the last call of each kind; each element is read back; the sorted map is related to the last call for each range by induction over the calls; lists of strings are computed as formulas (C56's formula language) |
| C58 | `set_width/height`, `set_scale_*`, `set_scale_to_size`, `width_scaled/height_scaled`, `insert_image_fit_to_cell` over exact rationals | field arithmetic for every image reachable by reading and resizing; F111, F112 counterexamples |
| C59 | the settings calls (`set_paper_size` ... `set_footer`), `write_page_setup`, `write_page_margins`, `write_print_options`, `write_header_footer`; margins are texts | each field after a run is the last said value (one lemma for all fields); each element is written, parsed and read by a separate reader; the chain of `str::replace` is proved equal to one pass over the text for texts without `&&[` |
| C60 | `write_sheet_views`, `write_sheet_view`, panes, selections, `write_sheet_pr` | as C59, with cases on the panes; F120, F125, F129 counterexamples |
| C61 | the protect and unprotect calls, `write_sheet_protection`, `write_protected_ranges`; the password hash is that of C23 | as C59; options are compared right by right; ranges by induction over the calls |
| C62 | `ignore_error_range`, `write_ignored_errors`, `write_row_breaks`, `write_col_breaks` | lists of ranges are split at blanks; induction over the calls |
| C63 | `assemble_xml_file` as a list of sections, each with the trees written for it; sections modelled elsewhere are any trees with the right tag | the tags of the sections are compared with the sequence of the schema, for every combination of present sections |
| C64 | Model/CellXml: the text of each kind of cell, of the row elements, of `sheetData` and of the shared strings part, on top of the C09/C13/C17 model | the text is shown to be that of an element tree, C07 gives the parse; an invariant says every stored text can be written; the reader in Spec/CellXml is composed with the C09 cell contents |
| C65 | `get_rich_string`, `write_font` for runs | trees of the runs; the reader of fonts is the one of C14 |
| C66 | serializer.rs state and serializer, header calls and `serialize` of worksheet.rs | data as serde values and the calls they make; the place of a record specified by looking back in the history; invariant between stored struct settings and history, induction over calls |
| C67 | Workbook part | `WBook` with all calls that reach workbook.xml (add/push/rename sheets, view calls, filters/print areas, define_name, VBA names), its save and its XML tree; a reader of workbook.xml written from ECMA-376 18.2 | induction over the history relating the state to what was asked (`AskRel`), composition with C04, C31, C40, C07; the ids of the sheets composed with the package model (C41) |
| C68 | Document properties | `DocProperties` with all its setters, and the trees of docProps/core.xml, custom.xml and app.xml; app.xml from the same `prepare` step as the workbook part; readers of the three parts written from ECMA-376 part 1 22.2–22.4 and part 2 11 | induction over the setter calls (`lastSaid`), composition with C07, C31, C40 and C67 for the list of parts |
| C69 | Dates as texts | `parse_from_str`, `and_hms`, `to_rfc3339`, `unix_time_to_rfc3339`; `f64` abstract with the few laws of `FloatSane` (met by a concrete instance in thousandths of a second); a relation for the documented forms and a reader of `YYYY-MM-DDThh:mm:ssZ` | splitting of the tokens by induction on the text, C21 (accepted dates) and C22 (calendar of a time stamp), composition with C68 |
| C70 | Rows, columns and blocks of data | `write_row`, `write_column`, the two matrix forms and the forms with a format, over all types of data except `Url` and `Decimal`; the counters overflow as `u16`/`u32` do | induction on the data: refinement of a sequence of single calls (C10 for what is refused), in every mode; with the cell contents of C09 on standard worksheets |
| C71 | Objects of a drawing | the writer of the drawing part (drawing.rs), from the anchors that C27 places | the text of the part is parsed back (C07) and a reader of DrawingML finds each object |
| C72 | Text boxes | the text, font, fill and line of a shape (drawing.rs, shape.rs; sizes are whole hundredths of a point and line widths whole thousandths) with the setters that validate | as C71; colours are compared with the theme palette |
| C73 | Axes of charts | the axis functions of chart.rs (4201-4846) with titles, fonts, formats and layouts, the defaults of each chart type (2894-3132) and every setter of `ChartAxis`; numbers are texts | the chart part is parsed back (C07, on the skeleton of C34) and a reader of the axes finds what the calls asked for |
| C74 | Formatting of series | series of chart.rs (3769-4029, 4980-5378): formats, markers, points, data labels and custom ones with texts, trendlines, error bars, inverted fills, smooth lines, with every setter of `ChartSeries`, `ChartMarker`, `ChartDataLabel`, `ChartTrendline`, `ChartErrorBars`, and `add_series`/`push_series`; numbers are texts; custom labels from cells are not modelled | the chart part is parsed back (C07, on the skeleton of C34) and a reader of the series finds what the calls asked for |
| C75 | Chart groups | the groups of chart.rs (3286-3763, 3775-3783, 4361-4397, 5384-5540): kind, direction, grouping, radar and scatter styles, gap, overlap, angle of the first slice, hole, drop lines, high-low lines, up-down bars, on primary and secondary axes and in a combined chart, with the setters of `Chart` and `ChartSeries` that change them | the chart part is parsed back and a reader of the groups finds what the calls asked for, on the series of each group alone |
| C76 | A chart as a whole | chart.rs (2727-2915, 3040-3285, 4085-4205, 5700-5860): style, protection, legend with removed entries, data table, plot area and chart area (layout, format), how hidden and empty cells and #N/A are shown; sheet borders of chartsheets | the chart part is parsed back and a reader of the chart finds what the calls asked for |
| C77 | Order of the elements of a chart part | the chart part of C75 and C76 (chart.rs 2727-2915, 3040-3763, 4085-4205, 4884-4905, 5700-5860) against the orders of the schema, ECMA-376 part 1, A.5.1, written down in Spec/ChartOrder.lean | the sections of each element have fixed names in a fixed order; those not of the schema are shown empty for each type of chart |
| C78 | Order of the elements of series | `write_series`, `write_scatter_series` (3772-3950) for all calls on series, against CT_BarSer, CT_LineSer, ... of the schema | as C77, for series whose calls are for charts of their type |
| C79 | Order of the elements of axes | the four axis functions (chart.rs 4201-4600) for all calls on axes, against CT_CatAx, CT_DateAx, CT_ValAx and CT_Scaling of the schema (Spec/AxisOrder.lean) | as C77, with the sections of C73 |

## Findings: disagreements between the properties and the code

Each line is a behaviour of the code found while modelling; "proved" names a counterexample theorem.

| id | where | what | theorem |
|----|-------|------|---------|
| F1 | shared_strings.rs:78 | plain text of the form `<r>...</r>` is written raw | C05_rich_lookalike_counterexample |
| F2 | worksheet.rs:15170 | a dynamic array formula drops its format | C13_dynamic_formula_loses_format |
| F4, F5 | worksheet.rs | refused array formula extends the dimensions; empty string accepted anywhere | C10_refused_extends_dimensions_counterexample, C10_empty_string_counterexample |
| F8 | worksheet.rs | format at a row/column crossing depends on unrelated call order | C43_intersection_depends_on_order |
| F9 | utility.rs | `A.1` underflows in `column_name_to_number` | C03_dotted_name_panics |
| F10, F11, F61, F62 | workbook.rs | `define_name` panics / misreads sheets; order of built-in names | C31_* counterexamples |
| F12 | workbook.rs | generated sheet names may clash after `push_worksheet` | C04_push_then_add_counterexample |
| F13, F66b | packager.rs, workbook.rs | header images are numbered inconsistently | C20_header_images, C19_header_images |
| F16 | xmlwriter.rs | attribute escaping misses tab, CR, controls | C06_tab_counterexample |
| F19, F48 | shared_strings.rs | noncharacters | C05_nonchar_counterexample |
| F20, F57 | worksheet.rs | outline maxima, half-applied groups | C26_* counterexamples |
| F22 | worksheet.rs | zero default height: no termination | C27_zero_height_counterexample |
| F25 | worksheet.rs | note author ids | C28_single_note_counterexample |
| F31 | worksheet.rs | whole-sheet print area ignored | C44_whole_sheet_counterexample |
| F33 | worksheet.rs | page breaks of zeros panic | C25_zero_break_counterexample |
| F35 | worksheet.rs | dimension of the whole first row | C11_first_row_counterexample |
| F46 | data_validation.rs | commas in list items | C39_comma_counterexample, C57_list_counterexample |
| F54 | worksheet.rs | range format outside the dimensions is lost | C42_range_format_outside_is_lost |
| F58-F60 | workbook.rs | active/hidden/first tab | C40_* counterexamples |
| F63 | workbook.rs | VML ids of buttons | C45_buttons_counterexample |
| F64 | drawing.rs | object anchors | C46_anchor |
| F65 | worksheet.rs | more than 65535 relationships | C41_too_many_links |
| F68-F70 | format.rs, styles.rs | format string after index ignored; automatic solid fill; `unset_hyperlink_style` sets | C14_number_format_ignored, C14_automatic_solid_fill, C14_unset_hyperlink |
| F74 | format.rs | `merge` drops the hyperlink mark | C47_merge_loses_hyperlink |
| F75 | url.rs:530 | escapes outside a lower-case list are escaped again (`%5B`, `%C3%A9`); a half-escaped URL keeps raw spaces | C29_escaped_twice_counterexample, C29_half_escaped_counterexample |
| F76 | url.rs:429 | a later `file://` inside a file path is removed | C29_file_prefix_counterexample |
| F77 | url.rs:451 | image link to a place in a relative file loses the place | C29_object_place_counterexample |
| F78 | shape.rs:561 | shape links lose the `#place` | C29_object_place_counterexample |
| F41 | formula.rs escape_formula | a quote directly behind a name character does not open a literal, so text in it is prefixed | C30_quote_counterexample |
| F79 | formula.rs Formula::new | `={1,2,3}` loses its closing brace | C30_array_constant_counterexample |
| F80 | formula.rs escape_formula | a user function whose name ends in a future name is split by the prefix | C30_own_function_counterexample |
| F26 | worksheet.rs:5015-5029 | a merge refused for overlap keeps its cells reserved: a later disjoint merge panics or is refused; its cells are overwritten | C15_phantom_panic_counterexample, C15_refused_overwrites_counterexample |
| F30 | worksheet.rs:8851-8868 | a table refused for overlap keeps its cells reserved: a later disjoint table panics | C16_phantom_panic_counterexample |
| F28 | worksheet.rs:8440-8464 | a refused autofilter leaves its hidden defined name set | C16_refused_filter_counterexample |
| F29 | worksheet.rs:8447-8464 | a moved autofilter keeps its old header cells: a table there is refused | C16_moved_filter_counterexample |
| F43 | table.rs:1178-1184 | total row without header row in row 1: unsigned underflow | C36_total_row_panic |
| F81 | worksheet.rs:8770-8775 | header row plus total row without a data row is accepted | C36_no_data_row_counterexample |
| F82 | table.rs | a control character in a column name makes the table part ill-formed | C50_control_character_counterexample |
| F83 | worksheet.rs prepare_worksheet_tables | a made-up name `TableN` clashes with a name given by the user: save refused | C50_default_name_counterexample |
| F18 | worksheet.rs:16546 | the format number of a table column is remapped in place: wrong after a second save | C50_second_save_counterexample |
| F67 | worksheet.rs | made-up table names stick: a second save can be refused | C50_second_save_name_counterexample |
| F72 | styles.rs write_fill, workbook.rs prepare_fills | a table or conditional format with only a foreground colour shows no colour | C51_lone_foreground_counterexample |
| F84 | workbook.rs prepare_num_formats | number format ids of differential formats survive a save and clash with cell formats at the next one | C51_second_save_counterexample |
| F14 | worksheet.rs row_matches_custom_filter / row_matches_list_filter | a number cell never matches a text filter value, also not "not equal to": the documented filter for non-blanks (`NotEqualTo " "`) hides rows with numbers | C33_text_value_counterexample |
| F87 | worksheet.rs hide_autofilter_rows | rows hidden by a filter at one save stay hidden at the next although the filter now shows them | C33_second_save_counterexample |
| F88 | worksheet.rs autofilter 8421-8444, write_auto_filter 18305 | an `autofilter()` refused because of a table replaces the range the conditions refer to but not the range that is written: conditions are written for the wrong columns | C33_refused_range_counterexample |
| F21 | worksheet.rs get_cache_data | a row of a multi-column chart range that has no cell at all contributes one empty entry instead of one per column, so later points move to a wrong index | C34_missing_row_counterexample |
| F89 | chart.rs cache data types | texts that parse as numbers are cached as numbers when every text of the range does | C34_text_number_counterexample |
| F90 | workbook.rs insert_chart_ranges_to_cache | a secondary axis title taken from a cell is written with an empty cache | C34_secondary_title_counterexample |
| F91 | chart.rs write_plot_area | a pie/doughnut chart combined with a column chart writes a group on axis ids that no axis element defines | C54_pie_column_counterexample |
| F92 | chart.rs validate | `validate()` (chart.rs 2723–2740) uses exclusive ranges `(2..6)`/`(2..4)`: the documented maximum polynomial order 6 and period 4 are rejected | C53_trend_counterexample |
| F45 | chart.rs new_from_string | a quoted worksheet name with `''` is not unescaped, one with `!` is not understood | C53_apostrophe_counterexample, C53_exclamation_counterexample |
| F47 | chart.rs new_from_string | the text `'!A1` panics (slice out of range) | C53_single_apostrophe_panics |
| F93 | utility.rs column_name_to_number | a column name of five letters overflows (panic in debug builds) | C53_long_column_panics |
| F94 | chart.rs new_from_string | texts such as `S!B7C8` are silently taken as the cell B1 | C53_not_a_range_counterexample |
| F95 | worksheet.rs add_sparkline_group | a block of cells is accepted; only its first row is used | C55_block_counterexample |
| F96 | worksheet.rs add_sparkline_group | as many cells as the other side of the data is accepted; sparklines show ranges outside the data (or drop part of it) | C55_other_side_counterexample |
| F39 | worksheet.rs write_extensions | conditional-format and sparkline extensions together: two `<ext>` opened, one closed, the worksheet part is not XML | C55_extensions_counterexample |
| F34 | worksheet.rs write_conditional_formats / x14 | ids are numbered in insertion order in one pass and in text order in the other: a data bar's rule names the id of another's extension | C38_link_counterexample |
| F97 | worksheet.rs write_x14_conditional_formattings | priorities of extension rules are counted without the other ranges | C38_priority_counterexample |
| F103 | conditional_format.rs icon set x14_rule | reversed, icons-only and greater-than settings are not written for Excel 2010 icon sets | C38_icons_counterexample |
| F104 | conditional_format.rs icon set x14_rule | a limit that is the lowest/highest value is dropped | C38_point_counterexample |
| F105 | conditional_format.rs data bar x14_rule | the negative border colour is dropped if equal to the fill colour | C38_border_counterexample |
| F106 | conditional_format.rs colour scales | theme colours are written as black | C38_theme_counterexample |
| F6 | worksheet.rs 15940 `check_dimensions` | constant memory: an ignored late write still lowers the first row/column of the dimension reference | C17_late_dimension_counterexample |
| F7 | worksheet.rs 18586 `flush_last_row` | constant memory: if the last row with data has settings its `<row>` is written twice; without data the settings of the last changed row are lost | C17_last_row_twice_counterexample, C17_no_data_counterexample |
| F55 | worksheet.rs 15560 `insert_cell_format` | constant memory: the format of a cell below the current row is lost | C17_format_ahead_counterexample |
| F107 | worksheet.rs `store_array_formula` | constant memory: an array formula that starts above the current row is lost, its zeros in later rows are written | C17_late_array_counterexample |
| F42 | image.rs `process_image`, `process_png`, `process_jpg` | a buffer of fewer than 4 bytes, or a truncated image, panics instead of giving an error | C35_short_counterexample, C35_truncated_counterexample |
| F108 | image.rs `process_jpg` | fill bytes before a marker (allowed by T.81) make a valid JPEG unreadable | C35_jpeg_fill_counterexample |
| F109 | image.rs `process_jpg` | the density is read from any APP0 segment, e.g. a JFIF extension thumbnail | C35_jpeg_app0_counterexample |
| F110 | image.rs `process_bmp` | top-down BMP (negative height) is read as 4 billion pixels high; the 12-byte core header is misread | C35_bmp_topdown_counterexample, C35_bmp_core_counterexample |
| F111 | image.rs `set_width`, `set_height` | the requested pixel size is only shown for images of 96 dpi | C58_set_width_counterexample |
| F112 | worksheet.rs `insert_image_fit_to_cell` | in a hidden row or column the image is not scaled at all | C58_hidden_cell_counterexample |
| F113 | worksheet.rs 18586 `flush_last_row` | constant memory: a worksheet with row settings but no data in its last row gets one more `<row>` element at every save; after a save the current row is closed, further writes to it are ignored | C18_constant_memory_counterexample, C18_constant_memory_row_closed_counterexample |
| F23, F24 | worksheet.rs 16787 `reset` | a save that fails after `prepare_vml` (e.g. a chart refers to a missing worksheet) leaves its notes, buttons and shapes behind: the next file has every note and button twice and the old shapes | SaveLists.C18_failed_save_counterexample |
| F114 | worksheet.rs 16392 `prepare_vml_objects` | `show_all_notes(true)` is stored in the notes at save: a later `show_all_notes(false)` has no effect | SaveLists.C18_show_all_notes_counterexample |
| F98 | conditional_format.rs 3019–3024 | `begins with` and `ends with` rules count the bytes of the text, not its characters | C56_bytes_counterexample |
| F99 | conditional_format.rs 3006–3025 | quotes in the text of a text rule are not doubled: the formula is invalid | C56_quote_counterexample |
| F101 | conditional_format.rs 6622 | the string `"` counts as already quoted: the formula is invalid | C56_values_counterexample |
| F102 | conditional_format.rs 3285–3299 | the rules for the last and the next month are wrong around the turn of the year: in January the last month is never found, in February January of the year before counts too, likewise November and December | C56_last_month_january_counterexample, C56_last_month_february_counterexample, C56_next_month_counterexample |
| F115 | conditional_format.rs 6617 | the empty string as a value gives an empty formula | C56_values_counterexample |
| F37 | worksheet.rs 20795 | `TwoDigitTextYear` has a misspelled attribute and is not ignored | C62_text_years_not_ignored |
| F117 | worksheet.rs write_sheet_pr | children of `sheetPr` not in the order of the schema | C63_sheet_properties_swapped |
| F118 | worksheet.rs 17483-17537 | `protectedRanges` in a chartsheet | C63_chartsheet_ranges |
| F119 | worksheet.rs 17483-17537 | `printOptions` in a chartsheet | C63_chartsheet_print_options |
| F120 | worksheet.rs write_selections | a selection on a sheet with frozen panes is not in the active pane | C60_selection_lost |
| F123 | worksheet.rs write_page_setup | `useFirstPageNumber` is given the page number, and is not a flag then | C59_first_page_lost |
| F125 | worksheet.rs set_top_left_cell | the first cell cannot be set back to A1 | C60_top_left_stays |
| F126 | worksheet.rs write_sheet_protection | options of chartsheets inverted | C61_chartsheet_inverted |
| F127 | worksheet.rs set_header | `&&[Page]` is replaced though `&&` is a literal ampersand | C59_literal_variable_replaced |
| F128 | worksheet.rs unprotect_range | generated names of ranges may clash | C61_range_name_clash |
| F129 | worksheet.rs write_sheet_pr | an automatic tab colour is written as black beside other sheet properties | C60_automatic_tab_coloured |
| F15 | worksheet.rs store_rich_string, store_string | low memory worksheets write rich strings inline but count them as shared, and count overwritten strings | C08_low_memory_count_counterexample |
| F17 | worksheet.rs write_formula_cell, get_rich_string | `_xHHHH_` in a formula, result or rich string is not escaped and reads as a character | C64_formula_escape_counterexample, C65_escape_counterexample |
| F50 | worksheet.rs write_constant_table_row | constant memory rows have no outline level and collapsed flag | C64_streamed_outline_counterexample |
| F56 | worksheet.rs store_rich_string | the length limit is applied to the markup | C65_length_counterexample |
| F122 | worksheet.rs write_formula_cell | results such as `nan` and `inf` are written as numbers | C64_nan_result_counterexample |
| F130 | shared_strings.rs write_sst_string | a plain string that looks like rich markup is written as markup | C64_lookalike_counterexample |
| F131 | serializer.rs set_current_struct | after a field that is a struct the remaining fields of the outer struct are dropped silently | C66_nested_struct_counterexample |
| F132 | worksheet.rs serialize_to_worksheet_cell | serializing a bare value after a record overwrites the last field of that record | C66_bare_value_counterexample |
| F133 | serializer.rs get_dimensions | hidden headers and no records: last row above first row, and a panic (u32 underflow) in row 0 | C66_empty_area_counterexample |
| F134 | worksheet.rs store_custom_serialization_headers | refused header call has already written some headers | C66_refused_headers_counterexample |
| F135 | serializer.rs get_tables | tables of serialized structs are added in HashMap order: table ids and names differ between runs | C66_table_order_counterexample |
| F136 | worksheet.rs store_serialized_tables | headers with a table option but no records: every call succeeds, the save fails | C66_table_without_records_counterexample |
| F137 | worksheet.rs set_name / workbook.rs write_sheet | a control character in a sheet name is accepted and makes workbook.xml malformed | C67_control_character |
| F138 | worksheet.rs set_name / workbook.rs write_sheet | a tab in a sheet name reads back as a space, so two distinct names become equal in the file | C67_tab_in_name |
| F139 | workbook.rs define_name | a name that is already defined is accepted again; both are written | C67_name_twice |
| F140 | properties.rs set_custom_property | a name that is already used is accepted again; custom.xml then has two properties of that name | C68_custom_name_twice |
| F141 | properties.rs / xmlwriter.rs | a carriage return in a property is written raw and reads back as a line feed | C68_carriage_return |
| F142 | datetime.rs:250-297 | a number that does not fit (300 minutes, 65536 hours) is taken as 0 without an error | C69_overflow_is_zero |
| F143 | datetime.rs validate_hms | 60 minutes are accepted | C69_sixty_minutes |
| F144 | datetime.rs:246 | a time zone such as `+01:00`, documented as ignored, loses the seconds | C69_zone_drops_seconds |
| F145 | datetime.rs:250-297 | what is no number is taken as 0 without an error (`12:xx` is noon) | C69_garbage_is_zero |
| F146 | datetime.rs to_rfc3339 | seconds with a fraction below 10 are written with one digit (`5.5Z`), no RFC 3339 | C69_fraction_text |
| F147 | datetime.rs to_rfc3339 | a time without a date, or of 24 hours and more, gives no RFC 3339 text | C69_no_date_text |
| F44 | table.rs:1885-1905 | a column name with the call of a future function gets a prefix in the total formula, which then refers to no column | C52_prefix_in_name |
| F148 | table.rs:1885-1905, formula.rs:846-901 | a double quote behind a capital letter, a digit or a dot in a column name (`Pipe 5"`) breaks the total formula | C52_quote_in_name |
| F27 | worksheet.rs:2324-2331 | `write_row(0, 65535, ["", "x"])`: the column number overflows (panic; in release builds the rest is written from column 0) | C70_column_overflow |
| F149 | drawing.rs:1099-1137 | the strikethrough and right-to-left settings of a `ShapeFont` are never written | C72_strikethrough_lost |
| F150 | drawing.rs:691-718 | a gradient fill whose stops were refused is written without stops, which is not valid | C72_gradient_without_stops |
| F151 | drawing.rs:1004 | a line feed at the end of the text of a shape is lost | C72_last_line_lost |
| F152 | drawing.rs:547-575 | a solid fill wins over a pattern or gradient fill that was set after it | C72_solid_fill_wins |
| F153 | chart.rs:8855-8868 | `set_name` with a range after `set_name` with a text keeps the old text as the title | C73_name_counterexample |
| F154 | chart.rs:5760-5803 | the strikethrough of a `ChartFont` is never written | C73_strike_counterexample |
| F155 | chart.rs:4283-4290 | `set_label_interval(1)` and `set_tick_interval(1)` write nothing, so the interval stays automatic | C73_interval_counterexample |
| F156 | chart.rs:4274, 11036-11070 | `set_automatic_axis(true)` and `set_date_axis(false)` make an automatic category axis a text axis | C73_automatic_counterexample |
| F157 | chart.rs:3552, 3600 | whether the axis of the categories is a date axis is decided by the primary x axis: wrong for secondary axes and for bar charts | C73_date_counterexample |
| F158 | chart.rs:11036-11046 | `set_date_axis(false)` on a value axis drops its maximum, minimum, base and units | C73_value_axis_counterexample |
| F159 | chart.rs:2944 | the secondary value axis of a bar chart ignores maximum, minimum, base and units | C73_bar_scale_counterexample |
| F160 | chart.rs:4256 | area, bar and stock charts lose the crossing of the secondary value axis, whose partner is hidden by default | C73_crossing_counterexample |
| F161 | chart.rs:4650-4665 | an axis crossed at the maximum of a reversed axis is written on the wrong side | C73_side_counterexample |
| F162 | chart.rs:1254-1272 | `push_series` replaces the format (scatter) or the marker (line, radar, scatter with lines) of the series by the default | C74_push_counterexample |
| F163 | chart.rs:3893-3897 | a format without a line shows the hidden line of a series in a scatter chart of points | C74_scatter_line_counterexample |
| F164 | chart.rs:5597-5607 | a marker with only a size or a format is written as `<c:symbol/>` without the required value | C74_symbol_counterexample |
| F165 | chart.rs:9220-9260 | `ChartMarker::set_none` has no effect after `set_automatic` or `set_type` | C74_marker_none_counterexample |
| F166 | chart.rs:5544 | a space or a new line as the separator of a label is written with a second space | C74_separator_counterexample |
| F167 | chart.rs:5126 | `show_series_name` alone shows the value too | C74_series_name_counterexample |
| F168 | chart.rs:5207-5215 | the format and font of the label of a trendline are lost if only R-squared is shown | C74_trend_label_counterexample |
| F169 | chart.rs:3775-3783 | the gap and overlap of the series on the primary axes are those of the series on the secondary axes, too | C75_spacing_counterexample |
| F170 | chart.rs:3775-3783 | the gap and overlap of the secondary series stay in the chart: a second save writes them for the primary series | C75_second_save_counterexample |
| F171 | chart.rs:3776 | `set_gap(150)` on a later series does not override the gap of an earlier one | C75_gap_counterexample |
| F172 | chart.rs:2846-2865 | removed legend entries are numbered in the order the series were added, not the order of the groups: the wrong entry is removed if a secondary series was added first | C76_legend_order_counterexample |
| F173 | chart.rs:2846-2865 | `delete_from_legend` on a series of a combined chart has no effect | C76_combined_legend_counterexample |
| F174 | chart.rs:4884-4905 | the format of a legend that lies over the chart is written before `c:overlay`: not the order of the schema | C77_legend_counterexample |
| F175 | chart.rs:3884-3900 | in scatter charts the marker of a series is written before its format: not the order of the schema | C78_scatter_counterexample |
| F176 | chart.rs:3796-3801 | `set_marker` on a series of a bar, column, area or pie chart writes `c:marker`, which these series do not have | C78_marker_counterexample |
| F177 | chart.rs:3803-3860 | `set_invert_if_negative` on a series of a line, area or pie chart writes `c:invertIfNegative`, which these series do not have; its colour comes before `c:smooth` | C78_invert_counterexample |
| F178 | chart.rs:3818-3836 | trendlines and error bars are written for the series of pie, doughnut and radar charts, which do not have them | C78_pie_counterexample |
| F179 | chart.rs:4378-4386 | an interval of labels or tick marks on a date axis writes `c:tickLblSkip` or `c:tickMarkSkip`, which date axes do not have | C79_date_counterexample |

Seen in the source but not (yet) in the model: F66 constant memory with embedded images panics;
F73 format index 164-255 collides with own formats.
