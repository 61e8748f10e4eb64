import Verif.Model.Dims
import Verif.Model.Xml
import Verif.Model.Style
import Verif.Model.Names
/-!
The text of the `<sheetData>` section and of the shared strings part: rows and cells are written
with `write!` and literal XML (/repo/src/worksheet.rs:18880-19273), not with the helper functions of
the XML writer, so they are modelled here as text.
-/
namespace Verif

/-! ### Rust's `str::parse::<f64>()` -/

/-- The words accepted by `f64::from_str` besides numbers, without regard to case (Rust standard
library, `core::num::dec2flt::parse::parse_inf_nan`). -/
def isInfNan (s : Str) : Bool :=
  let l := s.map fun c => if 'A' ≤ c && c ≤ 'Z' then Char.ofNat (c.toNat + 32) else c
  ["nan".toList, "inf".toList, "infinity".toList].contains l

/-- Drop a sign (the sign handling of `dec2flt` and `parse_scientific`, Rust standard library). -/
def stripSign (s : Str) : Str :=
  match s with
  | [] => []
  | c :: r => if c = '+' || c = '-' then r else c :: r

/-- The exponent part of a number after the digits: nothing, or `e`, an optional sign and at least one
digit up to the end (`core::num::dec2flt::parse::parse_scientific` and the test that everything has
been read). -/
def isExponent : Str → Bool
  | [] => true
  | c :: s =>
    (c = 'e' || c = 'E') &&
      (stripSign s ≠ [] && (stripSign s).all isAsciiDigit)

/-- `core::num::dec2flt::parse::parse_number` on the bytes after the sign: digits, optionally a point
and more digits, at least one digit in all, then the exponent. -/
def isPlainNumber (s : Str) : Bool :=
  let int := s.takeWhile isAsciiDigit
  match s.dropWhile isAsciiDigit with
  | '.' :: r => (int ≠ [] || r.takeWhile isAsciiDigit ≠ []) && isExponent (r.dropWhile isAsciiDigit)
  | r => int ≠ [] && isExponent r

/-- `str::parse::<f64>().is_ok()`, as used in /repo/src/worksheet.rs:19128 and 19183 (Rust standard
library, `core::num::dec2flt::dec2flt`): an optional sign, then a number or one of the words. -/
def parsesAsF64 (s : Str) : Bool :=
  isPlainNumber (stripSign s) || isInfNan (stripSign s)

/-! ### Cells -/

/-- The error values recognised in a formula result, /repo/src/worksheet.rs:19131-19132 and
19186-19187. -/
def errorTexts : List Str :=
  ["#DIV/0!".toList, "#N/A".toList, "#NAME?".toList, "#NULL!".toList, "#NUM!".toList,
   "#REF!".toList, "#VALUE!".toList, "#GETTING_DATA".toList]

/-- The result type attribute, /repo/src/worksheet.rs:19128-19143 and 19183-19198. -/
def resultType (result : Str) : Str :=
  if !parsesAsF64 result then
    if errorTexts.contains result then " t=\"e\"".toList
    else if result = "TRUE".toList || result = "FALSE".toList then " t=\"b\"".toList
    else " t=\"str\"".toList
  else []

/-- The text of the result, /repo/src/worksheet.rs:19146-19153 and 19201-19208. -/
def resultText (result : Str) : Str :=
  let r := escapeXmlData result
  let r := if r = "TRUE".toList then "1".toList else r
  if r = "FALSE".toList then "0".toList else r

/-- The ` s="…"` attribute, present for a style other than 0 (the two branches of each writer,
/repo/src/worksheet.rs:19020-19029; `style` in 19121-19125). -/
def styleText (xf : Nat) : Str :=
  if xf > 0 then " s=\"".toList ++ showNat xf ++ ['"'] else []

/-- The opening `<c r="…"` of every cell; `row` is one based. -/
def cellOpen (row : Nat) (col : Str) : Str := "<c r=\"".toList ++ col ++ showNat row ++ ['"']

/-- `write_number_cell`, /repo/src/worksheet.rs:19004-19030; the number as printed. -/
def numberCellText (row : Nat) (col n : Str) (xf : Nat) : Str :=
  cellOpen row col ++ styleText xf ++ "><v>".toList ++ n ++ "</v></c>".toList

/-- `write_string_cell`, /repo/src/worksheet.rs:19033-19053. -/
def stringCellText (row : Nat) (col : Str) (id xf : Nat) : Str :=
  cellOpen row col ++ styleText xf ++ " t=\"s\"><v>".toList ++ showNat id ++ "</v></c>".toList

/-- `write_inline_string_cell`, /repo/src/worksheet.rs:19056-19086. -/
def inlineStringCellText (row : Nat) (col s : Str) (xf : Nat) : Str :=
  let preserve := if s.head?.any isSstWhitespace || s.getLast?.any isSstWhitespace then
    " xml:space=\"preserve\"".toList else []
  cellOpen row col ++ styleText xf ++ " t=\"inlineStr\"><is><t".toList ++ preserve ++ ">".toList ++
    escapeXmlData (escapeXmlEscapes s) ++ "</t></is></c>".toList

/-- `write_inline_rich_string_cell`, /repo/src/worksheet.rs:19090-19110. -/
def inlineRichCellText (row : Nat) (col markup : Str) (xf : Nat) : Str :=
  cellOpen row col ++ styleText xf ++ " t=\"inlineStr\"><is>".toList ++ markup ++
    "</is></c>".toList

/-- `write_formula_cell`, /repo/src/worksheet.rs:19113-19160. -/
def formulaCellText (row : Nat) (col f : Str) (xf : Nat) (result : Str) : Str :=
  cellOpen row col ++ styleText xf ++ resultType result ++ "><f>".toList ++ escapeXmlData f ++
    "</f><v>".toList ++ resultText result ++ "</v></c>".toList

/-- `write_array_formula_cell`, /repo/src/worksheet.rs:19164-19215. -/
def arrayFormulaCellText (row : Nat) (col f : Str) (xf : Nat) (result : Str) (isDynamic : Bool)
    (range : Str) : Str :=
  cellOpen row col ++ styleText xf ++ (if isDynamic then " cm=\"1\"".toList else []) ++
    resultType result ++ "><f t=\"array\" ref=\"".toList ++ range ++ "\">".toList ++
    escapeXmlData f ++ "</f><v>".toList ++ resultText result ++ "</v></c>".toList

/-- `write_blank_cell`, /repo/src/worksheet.rs:19218-19224. -/
def blankCellText (row : Nat) (col : Str) (xf : Nat) : Str :=
  if xf > 0 then cellOpen row col ++ " s=\"".toList ++ showNat xf ++ "\"/>".toList else []

/-- `write_boolean_cell`, /repo/src/worksheet.rs:19227-19249. -/
def booleanCellText (row : Nat) (col : Str) (b : Bool) (xf : Nat) : Str :=
  cellOpen row col ++ styleText xf ++ " t=\"b\"><v>".toList ++
    (if b then "1".toList else "0".toList) ++ "</v></c>".toList

/-- `write_error_cell`, /repo/src/worksheet.rs:19253-19273. -/
def errorCellText (row : Nat) (col : Str) (vm xf : Nat) : Str :=
  cellOpen row col ++ styleText xf ++ " t=\"e\" vm=\"".toList ++ showNat vm ++
    "\"><v>#VALUE!</v></c>".toList

/-- The `match` on the cell type in the row loops, /repo/src/worksheet.rs:18463-18573 (standard) and
18691-18815 (constant memory), with the style index already resolved.  `images` is
`global_embedded_image_indices`; the code would panic outside it. -/
def cellText (constMem : Bool) (images : List Nat) (row col : Nat) (cell : Cell) (xf : Nat) : Str :=
  let name := columnNumberToName col
  match cell with
  | .number n _ | .dateTime n _ => numberCellText (row + 1) name n xf
  | .string _ _ id => match id with
    | some id => stringCellText (row + 1) name id xf
    | none => []
  | .rich s _ _ id =>
    if constMem then inlineRichCellText (row + 1) name s xf
    else match id with
      | some id => stringCellText (row + 1) name id xf
      | none => []
  | .inlineString s _ => inlineStringCellText (row + 1) name s xf
  | .formula f r _ => formulaCellText (row + 1) name f xf r
  | .arrayFormula f r _ d g => arrayFormulaCellText (row + 1) name f xf r d g
  | .blank _ => blankCellText (row + 1) name xf
  | .boolean b _ => booleanCellText (row + 1) name b xf
  | .error v _ => errorCellText (row + 1) name (images.getD v 0) xf

/-! ### Rows -/
section
variable {Fmt : Type}

/-- `DEFAULT_ROW_HEIGHT`, /repo/src/worksheet.rs:1418. -/
def DEFAULT_ROW_HEIGHT : Str := "15".toList

/-- The attributes of a `<row>` element: `write_table_row`, /repo/src/worksheet.rs:18880-18937, and for
constant memory `write_constant_table_row`, 18948-18991, which has no spans, outline level or collapsed
attribute.  `x14` is `use_x14_extensions`. -/
def Sheet.rowAttrs (s : Sheet Fmt) (x14 : Bool) (span : Option (Nat × Nat)) (row : Nat)
    (opt : Option (RowOpt Fmt)) : Attrs :=
  [("r".toList, showNat (row + 1))] ++
  (if s.cfg.constMem then [] else match span with
    | some m => [("spans".toList, showNat m.1 ++ [':'] ++ showNat m.2)]
    | none => []) ++
  (if x14 then [("x14ac:dyDescent".toList, "0.25".toList)] else []) ++
  (match opt with
    | some o =>
      let custom := o.height ≠ DEFAULT_ROW_HEIGHT || s.defaultHeight ≠ DEFAULT_ROW_HEIGHT
      (if o.xf ≠ 0 then
        [("s".toList, showNat (s.getGlobalXfIndex o.xf)), ("customFormat".toList, "1".toList)]
       else []) ++
      (if custom then [("ht".toList, o.height)] else []) ++
      (if o.hidden then [("hidden".toList, "1".toList)] else []) ++
      (if custom then [("customHeight".toList, "1".toList)] else []) ++
      (if o.level > 0 && !s.cfg.constMem then [("outlineLevel".toList, showNat o.level)] else []) ++
      (if o.collapsed && !s.cfg.constMem then [("collapsed".toList, "1".toList)] else [])
    | none =>
      if s.defaultHeight ≠ DEFAULT_ROW_HEIGHT then
        [("ht".toList, s.defaultHeight), ("customHeight".toList, "1".toList)]
      else [])

/-- One iteration of the row loop, /repo/src/worksheet.rs:18443-18575 and 18665-18817. -/
def Sheet.rowText (s : Sheet Fmt) (x14 : Bool) (images : List Nat) (ro : RowOut Fmt) : Str :=
  let attrs := s.rowAttrs x14 (s.rowSpan ro.row) ro.row ro.opt
  match ro.cells with
  | none => xmlEmptyTag "row".toList attrs
  | some cells =>
    xmlStartTag "row".toList attrs ++
    cells.flatMap (fun p => cellText s.cfg.constMem images ro.row p.1 p.2.1 p.2.2) ++
    xmlEndTag "row".toList

/-- The `<sheetData>` section of a worksheet, /repo/src/worksheet.rs:17362-17380 (`has_sheet_data` is
false before the first save).  In constant memory mode the start of the part is assembled before the last
row is flushed (/repo/src/packager.rs:447-476), so the test for an empty worksheet sees the same state. -/
def Sheet.sheetDataText [DecidableEq Fmt] (s : Sheet Fmt) (x14 : Bool) (images : List Nat) : Str :=
  if s.table.isEmpty && s.notes.isEmpty && s.changedRows.isEmpty then
    xmlEmptyTagOnly "sheetData".toList ++ s.rows.flatMap (s.rowText x14 images)
  else xmlStartTagOnly "sheetData".toList ++ s.rows.flatMap (s.rowText x14 images) ++
    xmlEndTag "sheetData".toList

end

/-! ### Shared strings -/

/-- `SharedStrings::assemble_xml_file`, /repo/src/shared_strings.rs:39-84; `keys` are the strings in
index order. -/
def sharedStringsText (t : SST) (keys : List Str) : Str :=
  xmlDeclaration ++
  xmlStartTag "sst".toList
    [("xmlns".toList, "http://schemas.openxmlformats.org/spreadsheetml/2006/main".toList),
     ("count".toList, showNat t.count), ("uniqueCount".toList, showNat t.unique)] ++
  keys.flatMap writeSstString ++ xmlEndTag "sst".toList

/-! ### Rich strings -/

/-- `write_font` with `is_rich_string_style`, /repo/src/styles.rs:160-217 and 248-256. -/
def runFontTree (f : Font) : Tree :=
  .node "rPr".toList []
    (optTree f.bold (.empty "b".toList []) ++
     optTree f.italic (.empty "i".toList []) ++
     optTree f.strikethrough (.empty "strike".toList []) ++
     optTree (f.underline ≠ .none) (underlineTree f.underline) ++
     optTree (f.script ≠ .none) (vertAlignTree f.script) ++
     [.empty "sz".toList [("val".toList, f.size)]] ++
     fontColorTrees f.color false ++
     [.empty "rFont".toList [("val".toList, f.name)]] ++
     optTree (f.family > 0) (.empty "family".toList [("val".toList, showNat f.family)]) ++
     optTree (f.charset > 0) (.empty "charset".toList [("val".toList, showNat f.charset)]) ++
     optTree (f.scheme ≠ []) (.empty "scheme".toList [("val".toList, f.scheme)]))

/-- One segment of a rich string, /repo/src/worksheet.rs:15477-15494. -/
def runTree (first : Bool) (seg : Format × Str) : Tree :=
  let attrs := if seg.2.head?.any isSstWhitespace || seg.2.getLast?.any isSstWhitespace then
    [("xml:space".toList, "preserve".toList)] else []
  .node "r".toList []
    ((if seg.1 = {} ∧ first then [] else [runFontTree seg.1.font]) ++
     [.data "t".toList seg.2 attrs])

/-- The loop over the segments, /repo/src/worksheet.rs:15466-15496; `none` is a `ParameterError`. -/
def runTrees : Bool → List (Format × Str) → Option (List Tree)
  | _, [] => some []
  | first, seg :: segs =>
    if seg.2 = [] then none else (runTrees false segs).map (runTree first seg :: ·)

/-- `get_rich_string`, /repo/src/worksheet.rs:15443-15501: the markup and the plain text, or a
`ParameterError`. -/
def getRichString (segs : List (Format × Str)) : Option (Str × Str) :=
  if segs = [] then none
  else (runTrees true segs).map fun ts => (writeCalls (callsList ts), segs.flatMap Prod.snd)

end Verif
