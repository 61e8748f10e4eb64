import Verif.Model.Xml
/-!
Cell formats and the styles part: /repo/src/format.rs, /repo/src/color.rs, the font, fill, border and
number format tables of /repo/src/workbook.rs:2550-2725 and /repo/src/styles.rs.
-/
namespace Verif

/-- `Color`, /repo/src/color.rs:138-206. -/
inductive Color where
  | rgb (n : Nat)
  | theme (color shade : Nat)
  | default
  | automatic
  | black | blue | brown | cyan | gray | green | lime | magenta | navy | orange | pink | purple
  | red | silver | white | yellow
deriving DecidableEq, Repr

/-- A digit of `{:X}` (Rust standard library). -/
def hexDigitUpper (d : Nat) : Char := if d < 10 then Char.ofNat (48 + d) else Char.ofNat (55 + d)

/-- `format!("{color:06X}")`, /repo/src/color.rs:227. Only the last six digits: the setters refuse
colours above 0xFFFFFF (/repo/src/color.rs:469-479). -/
def hex06 (n : Nat) : Str :=
  [hexDigitUpper (n / 1048576 % 16), hexDigitUpper (n / 65536 % 16), hexDigitUpper (n / 4096 % 16),
   hexDigitUpper (n / 256 % 16), hexDigitUpper (n / 16 % 16), hexDigitUpper (n % 16)]

/-- `rgb_hex_value`, /repo/src/color.rs:210-234. -/
def Color.rgbHexValue : Color → Str
  | .red => "FF0000".toList
  | .blue => "0000FF".toList
  | .cyan => "00FFFF".toList
  | .gray => "808080".toList
  | .lime => "00FF00".toList
  | .navy => "000080".toList
  | .pink => "FFC0CB".toList
  | .brown => "800000".toList
  | .green => "008000".toList
  | .white => "FFFFFF".toList
  | .orange => "FF6600".toList
  | .purple => "800080".toList
  | .silver => "C0C0C0".toList
  | .yellow => "FFFF00".toList
  | .magenta => "FF00FF".toList
  | .rgb n => hex06 n
  | .theme _ _ | .default | .automatic | .black => "000000".toList

/-- `argb_hex_value`, /repo/src/color.rs:249-251. -/
def Color.argbHexValue (c : Color) : Str := "FF".toList ++ c.rgbHexValue

/-- The tint texts of the theme palette, /repo/src/color.rs:257-356; `[]` where the attribute is
omitted. -/
def themeTint (color shade : Nat) : Str :=
  match color with
  | 0 => match shade with
    | 1 => "-4.9989318521683403E-2".toList
    | 2 => "-0.14999847407452621".toList
    | 3 => "-0.249977111117893".toList
    | 4 => "-0.34998626667073579".toList
    | 5 => "-0.499984740745262".toList
    | _ => []
  | 1 => match shade with
    | 1 => "0.499984740745262".toList
    | 2 => "0.34998626667073579".toList
    | 3 => "0.249977111117893".toList
    | 4 => "0.14999847407452621".toList
    | 5 => "4.9989318521683403E-2".toList
    | _ => []
  | 2 => match shade with
    | 1 => "-9.9978637043366805E-2".toList
    | 2 => "-0.249977111117893".toList
    | 3 => "-0.499984740745262".toList
    | 4 => "-0.749992370372631".toList
    | 5 => "-0.89999084444715716".toList
    | _ => []
  | _ => match shade with
    | 1 => "0.79998168889431442".toList
    | 2 => "0.59999389629810485".toList
    | 3 => "0.39997558519241921".toList
    | 4 => "-0.249977111117893".toList
    | 5 => "-0.499984740745262".toList
    | _ => []

/-- `Color::attributes`, /repo/src/color.rs:255-361. -/
def Color.attributes : Color → Attrs
  | .theme color shade =>
    if themeTint color shade = [] then [("theme".toList, showNat color)]
    else [("theme".toList, showNat color), ("tint".toList, themeTint color shade)]
  | c => [("rgb".toList, c.argbHexValue)]

/-- `Color::is_valid`, /repo/src/color.rs:469-493. -/
def Color.isValid : Color → Bool
  | .rgb n => decide (n ≤ 0xFFFFFF)
  | .theme color shade => decide (color ≤ 9) && decide (shade ≤ 5)
  | _ => true

/-- `Color::is_auto_or_default`, /repo/src/color.rs:496-498. -/
def Color.isAutoOrDefault (c : Color) : Bool := c = .automatic || c = .default

/-- `FormatPattern`, /repo/src/format.rs:2809-2868. -/
inductive FormatPattern where
  | none | solid | mediumGray | darkGray | lightGray | darkHorizontal | darkVertical | darkDown
  | darkUp | darkGrid | darkTrellis | lightHorizontal | lightVertical | lightDown | lightUp
  | lightGrid | lightTrellis | gray125 | gray0625
deriving DecidableEq, Repr

/-- `Display for FormatPattern`, /repo/src/format.rs:2870-2894. -/
def FormatPattern.text : FormatPattern → Str
  | .none => "none".toList
  | .solid => "solid".toList
  | .darkUp => "darkUp".toList
  | .lightUp => "lightUp".toList
  | .gray125 => "gray125".toList
  | .darkGray => "darkGray".toList
  | .darkDown => "darkDown".toList
  | .darkGrid => "darkGrid".toList
  | .gray0625 => "gray0625".toList
  | .lightGray => "lightGray".toList
  | .lightDown => "lightDown".toList
  | .lightGrid => "lightGrid".toList
  | .mediumGray => "mediumGray".toList
  | .darkTrellis => "darkTrellis".toList
  | .darkVertical => "darkVertical".toList
  | .lightTrellis => "lightTrellis".toList
  | .lightVertical => "lightVertical".toList
  | .darkHorizontal => "darkHorizontal".toList
  | .lightHorizontal => "lightHorizontal".toList

/-- `FormatBorder`, /repo/src/format.rs:2896-2942. -/
inductive FormatBorder where
  | none | thin | medium | dashed | dotted | thick | double | hair | mediumDashed | dashDot
  | mediumDashDot | dashDotDot | mediumDashDotDot | slantDashDot
deriving DecidableEq, Repr

/-- `Display for FormatBorder`, /repo/src/format.rs:2944-2963. -/
def FormatBorder.text : FormatBorder → Str
  | .none => "none".toList
  | .thin => "thin".toList
  | .hair => "hair".toList
  | .thick => "thick".toList
  | .medium => "medium".toList
  | .dashed => "dashed".toList
  | .dotted => "dotted".toList
  | .double => "double".toList
  | .dashDot => "dashDot".toList
  | .dashDotDot => "dashDotDot".toList
  | .mediumDashed => "mediumDashed".toList
  | .slantDashDot => "slantDashDot".toList
  | .mediumDashDot => "mediumDashDot".toList
  | .mediumDashDotDot => "mediumDashDotDot".toList

/-- `FormatDiagonalBorder`, /repo/src/format.rs:2969-2983. -/
inductive FormatDiagonalBorder where
  | none | borderUp | borderDown | borderUpDown
deriving DecidableEq, Repr

/-- `FormatUnderline`, /repo/src/format.rs:3028-3045. -/
inductive FormatUnderline where
  | none | single | double | singleAccounting | doubleAccounting
deriving DecidableEq, Repr

/-- `FormatScript`, /repo/src/format.rs:3050-3061. -/
inductive FormatScript where
  | none | superscript | subscript
deriving DecidableEq, Repr

/-- `FormatAlign`, /repo/src/format.rs:3063-3111. -/
inductive FormatAlign where
  | general | left | center | right | fill | justify | centerAcross | distributed | top | bottom
  | verticalCenter | verticalJustify | verticalDistributed
deriving DecidableEq, Repr

/-- `Font`, /repo/src/format.rs:2721-2758. `condense` and `extend` are left out: no setter changes
them and nothing reads them. -/
structure Font where
  bold : Bool := false
  italic : Bool := false
  underline : FormatUnderline := .none
  name : Str := "Calibri".toList
  size : Str := "11".toList
  color : Color := .default
  strikethrough : Bool := false
  script : FormatScript := .none
  family : Nat := 2
  charset : Nat := 0
  scheme : Str := "minor".toList
  isHyperlink : Bool := false
deriving DecidableEq, Repr

/-- `Fill`, /repo/src/format.rs:2760-2765. -/
structure Fill where
  foregroundColor : Color := .default
  backgroundColor : Color := .default
  pattern : FormatPattern := .none
deriving DecidableEq, Repr

/-- `Border`, /repo/src/format.rs:2696-2709. -/
structure Border where
  bottomStyle : FormatBorder := .none
  topStyle : FormatBorder := .none
  leftStyle : FormatBorder := .none
  rightStyle : FormatBorder := .none
  bottomColor : Color := .default
  topColor : Color := .default
  leftColor : Color := .default
  rightColor : Color := .default
  diagonalStyle : FormatBorder := .none
  diagonalColor : Color := .default
  diagonalType : FormatDiagonalBorder := .none
deriving DecidableEq, Repr

/-- `Alignment`, /repo/src/format.rs:2685-2694. The rotation is stored as the value written, which is
never negative (`set_rotation`). -/
structure Alignment where
  horizontal : FormatAlign := .general
  vertical : FormatAlign := .general
  textWrap : Bool := false
  rotation : Nat := 0
  indent : Nat := 0
  shrink : Bool := false
  readingDirection : Nat := 0
deriving DecidableEq, Repr

/-- `Format`, /repo/src/format.rs:527-564: the fields that equality and hashing look at
(/repo/src/format.rs:566-595). -/
structure Format where
  numFormat : Str := []
  numFormatIndex : Nat := 0
  font : Font := {}
  alignment : Alignment := {}
  borders : Border := {}
  fill : Fill := {}
  hidden : Bool := false
  locked : Bool := true
  checkbox : Bool := false
  quotePrefix : Bool := false
deriving DecidableEq, Repr

/-- The format strings of `set_num_format_index`, /repo/src/format.rs:935-971. -/
def builtInNumFormats : List (Nat × Str) :=
  [(1, "0".toList), (2, "0.00".toList), (3, "#,##0".toList), (4, "#,##0.00".toList),
   (5, "($#,##0_);($#,##0)".toList), (6, "($#,##0_);[Red]($#,##0)".toList),
   (7, "($#,##0.00_);($#,##0.00)".toList), (8, "($#,##0.00_);[Red]($#,##0.00)".toList),
   (9, "0%".toList), (10, "0.00%".toList), (11, "0.00E+00".toList), (12, "# ?/?".toList),
   (13, "# ??/??".toList), (14, "m/d/yy".toList), (15, "d-mmm-yy".toList), (16, "d-mmm".toList),
   (17, "mmm-yy".toList), (18, "h:mm AM/PM".toList), (19, "h:mm:ss AM/PM".toList),
   (20, "h:mm".toList), (21, "h:mm:ss".toList), (22, "m/d/yy h:mm".toList),
   (37, "(#,##0_);(#,##0)".toList), (38, "(#,##0_);[Red](#,##0)".toList),
   (39, "(#,##0.00_);(#,##0.00)".toList), (40, "(#,##0.00_);[Red](#,##0.00)".toList),
   (41, "_(* #,##0_);_(* (#,##0);_(* \"-\"_);_(_)".toList),
   (42, "_($* #,##0_);_($* (#,##0);_($* \"-\"_);_(_)".toList),
   (43, "_(* #,##0.00_);_(* (#,##0.00);_(* \"-\"??_);_(_)".toList),
   (44, "_($* #,##0.00_);_($* (#,##0.00);_($* \"-\"??_);_(_)".toList),
   (45, "mm:ss".toList), (46, "[h]:mm:ss".toList), (47, "mm:ss.0".toList),
   (48, "##0.0E+0".toList), (49, "@".toList)]

/-- The public setters of `Format` (and `merge`), /repo/src/format.rs:757-2439. A font size is given
as the text Rust prints for it. -/
inductive FormatCall where
  | setNumFormat (s : Str)
  | setNumFormatIndex (n : Nat)
  | setBold | unsetBold | setItalic | unsetItalic
  | setFontColor (c : Color)
  | setFontName (s : Str)
  | setFontSize (s : Str)
  | setFontScheme (s : Str)
  | setFontFamily (n : Nat)
  | setFontCharset (n : Nat)
  | setUnderline (u : FormatUnderline)
  | setFontStrikethrough | unsetFontStrikethrough
  | setFontScript (s : FormatScript)
  | setAlign (a : FormatAlign)
  | setTextWrap | unsetTextWrap
  | setIndent (n : Nat)
  | setRotation (r : Int)
  | setReadingDirection (n : Nat)
  | setShrink | unsetShrink
  | setPattern (p : FormatPattern)
  | setBackgroundColor (c : Color)
  | setForegroundColor (c : Color)
  | setBorder (b : FormatBorder)
  | setBorderColor (c : Color)
  | setBorderTop (b : FormatBorder)
  | setBorderTopColor (c : Color)
  | setBorderBottom (b : FormatBorder)
  | setBorderBottomColor (c : Color)
  | setBorderLeft (b : FormatBorder)
  | setBorderLeftColor (c : Color)
  | setBorderRight (b : FormatBorder)
  | setBorderRightColor (c : Color)
  | setBorderDiagonal (b : FormatBorder)
  | setBorderDiagonalColor (c : Color)
  | setBorderDiagonalType (d : FormatDiagonalBorder)
  | setHyperlink | unsetHyperlinkStyle
  | setUnlocked | setLocked | setHidden | unsetHidden
  | setQuotePrefix | unsetQuotePrefix | setCheckbox | unsetCheckbox
deriving DecidableEq, Repr

/-- Change the font of a format (the setters assign to `self.font.…`, /repo/src/format.rs:1010-1342). -/
def Format.onFont (f : Format) (g : Font → Font) : Format := { f with font := g f.font }
/-- Change the alignment, /repo/src/format.rs:1405-1686. -/
def Format.onAlign (f : Format) (g : Alignment → Alignment) : Format :=
  { f with alignment := g f.alignment }
/-- Change the borders, /repo/src/format.rs:1904-2203. -/
def Format.onBorder (f : Format) (g : Border → Border) : Format := { f with borders := g f.borders }
/-- Change the fill, /repo/src/format.rs:1741-1855. -/
def Format.onFill (f : Format) (g : Fill → Fill) : Format := { f with fill := g f.fill }

/-- The setters, /repo/src/format.rs:829-2439 in the order of the file. -/
def Format.apply (f : Format) : FormatCall → Format
  | .setNumFormat s => { f with numFormat := s }
  | .setNumFormatIndex n =>
    { f with numFormatIndex := n, numFormat := (builtInNumFormats.lookup n).getD f.numFormat }
  | .setBold => f.onFont fun t => { t with bold := true }
  | .unsetBold => f.onFont fun t => { t with bold := false }
  | .setItalic => f.onFont fun t => { t with italic := true }
  | .unsetItalic => f.onFont fun t => { t with italic := false }
  | .setFontColor c => if c.isValid then f.onFont fun t => { t with color := c } else f
  | .setFontName s => f.onFont fun t =>
      { t with name := s, scheme := if s ≠ "Calibri".toList then [] else t.scheme }
  | .setFontSize s => f.onFont fun t => { t with size := s }
  | .setFontScheme s => f.onFont fun t => { t with scheme := s }
  | .setFontFamily n => f.onFont fun t => { t with family := n }
  | .setFontCharset n => f.onFont fun t => { t with charset := n }
  | .setUnderline u => f.onFont fun t => { t with underline := u }
  | .setFontStrikethrough => f.onFont fun t => { t with strikethrough := true }
  | .unsetFontStrikethrough => f.onFont fun t => { t with strikethrough := false }
  | .setFontScript s => f.onFont fun t => { t with script := s }
  | .setAlign a => f.onAlign fun t =>
      match a with
      | .general => { t with horizontal := .general, vertical := .general }
      | .center | .centerAcross | .distributed | .fill | .justify | .left | .right =>
        { t with horizontal := a }
      | .bottom | .top | .verticalCenter | .verticalDistributed | .verticalJustify =>
        { t with vertical := a }
  | .setTextWrap => f.onAlign fun t => { t with textWrap := true }
  | .unsetTextWrap => f.onAlign fun t => { t with textWrap := false }
  | .setIndent n => f.onAlign fun t => { t with indent := n }
  | .setRotation r =>
    if r = 270 then f.onAlign fun t => { t with rotation := 255 }
    else if -90 ≤ r ∧ r ≤ -1 then f.onAlign fun t => { t with rotation := (-r + 90).toNat }
    else if 0 ≤ r ∧ r ≤ 90 then f.onAlign fun t => { t with rotation := r.toNat }
    else f
  | .setReadingDirection n =>
    if n > 2 then f else f.onAlign fun t => { t with readingDirection := n }
  | .setShrink => f.onAlign fun t => { t with shrink := true }
  | .unsetShrink => f.onAlign fun t => { t with shrink := false }
  | .setPattern p => f.onFill fun t => { t with pattern := p }
  | .setBackgroundColor c =>
    if c.isValid then f.onFill fun t => { t with backgroundColor := c } else f
  | .setForegroundColor c =>
    if c.isValid then f.onFill fun t => { t with foregroundColor := c } else f
  | .setBorder b => f.onBorder fun t =>
      { t with topStyle := b, leftStyle := b, rightStyle := b, bottomStyle := b }
  | .setBorderColor c =>
    if c.isValid then f.onBorder fun t =>
      { t with topColor := c, leftColor := c, rightColor := c, bottomColor := c } else f
  | .setBorderTop b => f.onBorder fun t => { t with topStyle := b }
  | .setBorderTopColor c => if c.isValid then f.onBorder fun t => { t with topColor := c } else f
  | .setBorderBottom b => f.onBorder fun t => { t with bottomStyle := b }
  | .setBorderBottomColor c =>
    if c.isValid then f.onBorder fun t => { t with bottomColor := c } else f
  | .setBorderLeft b => f.onBorder fun t => { t with leftStyle := b }
  | .setBorderLeftColor c => if c.isValid then f.onBorder fun t => { t with leftColor := c } else f
  | .setBorderRight b => f.onBorder fun t => { t with rightStyle := b }
  | .setBorderRightColor c => if c.isValid then f.onBorder fun t => { t with rightColor := c } else f
  | .setBorderDiagonal b => f.onBorder fun t => { t with diagonalStyle := b }
  | .setBorderDiagonalColor c =>
    if c.isValid then f.onBorder fun t => { t with diagonalColor := c } else f
  | .setBorderDiagonalType d => f.onBorder fun t => { t with diagonalType := d }
  | .setHyperlink => f.onFont fun t =>
      { t with isHyperlink := true, color := .theme 10 0, underline := .single, scheme := [] }
  | .unsetHyperlinkStyle => f.onFont fun t => { t with isHyperlink := true }
  | .setUnlocked => { f with locked := false }
  | .setLocked => { f with locked := true }
  | .setHidden => { f with hidden := true }
  | .unsetHidden => { f with hidden := false }
  | .setQuotePrefix => { f with quotePrefix := true }
  | .unsetQuotePrefix => { f with quotePrefix := false }
  | .setCheckbox => { f with checkbox := true }
  | .unsetCheckbox => { f with checkbox := false }

/-- A format built from `Format::new()`, /repo/src/format.rs:624-648. -/
def Format.build (cs : List FormatCall) : Format := cs.foldl Format.apply {}

/-- `if self.x == default { self.x = other.x }`, the pattern of /repo/src/format.rs:2531-2681. -/
def takeIf {α : Type} [DecidableEq α] (dflt self other : α) : α := if self = dflt then other else self

/-- `merge_fill`, /repo/src/format.rs:2546-2558. -/
def Fill.merge (a b : Fill) : Fill :=
  { foregroundColor := takeIf .default a.foregroundColor b.foregroundColor
    backgroundColor := takeIf .default a.backgroundColor b.backgroundColor
    pattern := takeIf .none a.pattern b.pattern }

/-- `merge_font`, /repo/src/format.rs:2561-2601; `is_hyperlink` is not touched. -/
def Font.merge (a b : Font) : Font :=
  { bold := a.bold || b.bold
    italic := a.italic || b.italic
    strikethrough := a.strikethrough || b.strikethrough
    family := takeIf 2 a.family b.family
    charset := takeIf 0 a.charset b.charset
    name := takeIf "Calibri".toList a.name b.name
    size := takeIf "11".toList a.size b.size
    scheme := takeIf "minor".toList a.scheme b.scheme
    color := takeIf .default a.color b.color
    script := takeIf .none a.script b.script
    underline := takeIf .none a.underline b.underline
    isHyperlink := a.isHyperlink }

/-- `merge_border`, /repo/src/format.rs:2604-2654. -/
def Border.merge (a b : Border) : Border :=
  if b = {} then a
  else
    { bottomStyle := takeIf .none a.bottomStyle b.bottomStyle
      topStyle := takeIf .none a.topStyle b.topStyle
      leftStyle := takeIf .none a.leftStyle b.leftStyle
      rightStyle := takeIf .none a.rightStyle b.rightStyle
      diagonalStyle := takeIf .none a.diagonalStyle b.diagonalStyle
      bottomColor := takeIf .default a.bottomColor b.bottomColor
      topColor := takeIf .default a.topColor b.topColor
      leftColor := takeIf .default a.leftColor b.leftColor
      rightColor := takeIf .default a.rightColor b.rightColor
      diagonalColor := takeIf .default a.diagonalColor b.diagonalColor
      diagonalType := takeIf .none a.diagonalType b.diagonalType }

/-- `merge_alignment`, /repo/src/format.rs:2657-2682. -/
def Alignment.merge (a b : Alignment) : Alignment :=
  { shrink := a.shrink || b.shrink
    textWrap := a.textWrap || b.textWrap
    indent := takeIf 0 a.indent b.indent
    rotation := takeIf 0 a.rotation b.rotation
    readingDirection := takeIf 0 a.readingDirection b.readingDirection
    horizontal := takeIf .general a.horizontal b.horizontal
    vertical := takeIf .general a.vertical b.vertical }

/-- `Format::merge`, /repo/src/format.rs:757-761, and `merge_with`, 2525-2543. -/
def Format.merge (a b : Format) : Format :=
  { hidden := a.hidden || b.hidden
    checkbox := a.checkbox || b.checkbox
    quotePrefix := a.quotePrefix || b.quotePrefix
    locked := a.locked && b.locked
    numFormat := takeIf [] a.numFormat b.numFormat
    numFormatIndex := takeIf 0 a.numFormatIndex b.numFormatIndex
    fill := a.fill.merge b.fill
    font := a.font.merge b.font
    borders := a.borders.merge b.borders
    alignment := a.alignment.merge b.alignment }

/-- A `Format` of `Workbook::xf_formats` with the fields filled in at save,
/repo/src/format.rs:531-536, 2445-2478. -/
structure PFormat where
  fmt : Format
  fontIndex : Nat := 0
  hasFont : Bool := false
  fillIndex : Nat := 0
  hasFill : Bool := false
  borderIndex : Nat := 0
  hasBorder : Bool := false
deriving DecidableEq, Repr

/-- The loop common to `prepare_fonts` (/repo/src/workbook.rs:2575-2586), `prepare_fills` (2630-2640)
and `prepare_borders` (2650-2661): look the key up in the hash map, else add it with the next
number. `setIndex` is `set_font_index` etc., /repo/src/format.rs:2445-2474. The `u16` counters are
unbounded here. -/
def indexLoop {κ : Type} [DecidableEq κ] (key : PFormat → κ) (setIndex : Nat → Bool → PFormat → PFormat) :
    List (κ × Nat) → Nat → List PFormat → List PFormat × Nat
  | _, count, [] => ([], count)
  | table, count, p :: ps =>
    match table.lookup (key p) with
    | some i =>
      let r := indexLoop key setIndex table count ps
      (setIndex i false p :: r.1, r.2)
    | none =>
      let r := indexLoop key setIndex ((key p, count) :: table) (count + 1) ps
      (setIndex count true p :: r.1, r.2)

/-- `set_font_index`, /repo/src/format.rs:2445-2448. -/
def PFormat.setFontIndex (i : Nat) (has : Bool) (p : PFormat) : PFormat :=
  { p with fontIndex := i, hasFont := has }
/-- `set_fill_index`, /repo/src/format.rs:2466-2469. -/
def PFormat.setFillIndex (i : Nat) (has : Bool) (p : PFormat) : PFormat :=
  { p with fillIndex := i, hasFill := has }
/-- `set_border_index`, /repo/src/format.rs:2471-2474. -/
def PFormat.setBorderIndex (i : Nat) (has : Bool) (p : PFormat) : PFormat :=
  { p with borderIndex := i, hasBorder := has }

/-- `prepare_fonts`, /repo/src/workbook.rs:2571-2588: the formats and `font_count`. -/
def prepareFonts (ps : List PFormat) : List PFormat × Nat :=
  indexLoop (fun p => p.fmt.font) PFormat.setFontIndex [] 0 ps

/-- The colours filled in for a fill, /repo/src/workbook.rs:2609-2628. -/
def fixFill (fill : Fill) : Fill :=
  let fill :=
    if (fill.pattern = .none ∨ fill.pattern = .solid) ∧ fill.backgroundColor ≠ .default ∧
        fill.foregroundColor = .default then
      { fill with foregroundColor := fill.backgroundColor, backgroundColor := .default,
                  pattern := .solid }
    else fill
  if (fill.pattern = .none ∨ fill.pattern = .solid) ∧ fill.backgroundColor = .default ∧
      fill.foregroundColor ≠ .default then
    { fill with backgroundColor := .default, pattern := .solid }
  else fill

/-- `prepare_fills`, /repo/src/workbook.rs:2591-2643. The code changes each fill just before looking
it up; here all are changed first, which gives the same. -/
def prepareFills (ps : List PFormat) : List PFormat × Nat :=
  indexLoop (fun p => p.fmt.fill) PFormat.setFillIndex
    [({}, 0), ({ pattern := .gray125 }, 1)] 2
    (ps.map fun p => { p with fmt := { p.fmt with fill := fixFill p.fmt.fill } })

/-- `prepare_borders`, /repo/src/workbook.rs:2646-2662. -/
def prepareBorders (ps : List PFormat) : List PFormat × Nat :=
  indexLoop (fun p => p.fmt.borders) PFormat.setBorderIndex [] 0 ps

/-- `set_num_format_index_u16`, /repo/src/format.rs:2476-2478. -/
def PFormat.setNumIndex (i : Nat) (p : PFormat) : PFormat :=
  { p with fmt := { p.fmt with numFormatIndex := i } }

/-- The loop of `prepare_num_formats`, /repo/src/workbook.rs:2678-2704, over the cell formats
(`is_dxf_format` is false for them, /repo/src/worksheet.rs:16097): the formats and `num_formats`. -/
def numFormatLoop : List (Str × Nat) → Nat → List Str → List PFormat → List PFormat × List Str
  | _, _, nf, [] => ([], nf)
  | table, index, nf, p :: ps =>
    if p.fmt.numFormatIndex > 0 ∨ p.fmt.numFormat = [] then
      let r := numFormatLoop table index nf ps
      (p :: r.1, r.2)
    else
      match table.lookup p.fmt.numFormat with
      | some i =>
        let r := numFormatLoop table index nf ps
        (p.setNumIndex i :: r.1, r.2)
      | none =>
        let r := numFormatLoop ((p.fmt.numFormat, index) :: table) (index + 1)
          (nf ++ [p.fmt.numFormat]) ps
        (p.setNumIndex index :: r.1, r.2)

/-- `prepare_num_formats`, /repo/src/workbook.rs:2671-2705, for the cell formats. -/
def prepareNumFormats (ps : List PFormat) : List PFormat × List Str := numFormatLoop [] 164 [] ps

/-- What `Styles::new` gets, /repo/src/styles.rs:44-70, /repo/src/packager.rs:670-680 (the
formats of tables and conditional formats are left out, see `dxfs` below). -/
structure StyleData where
  xfFormats : List PFormat
  fontCount : Nat
  fillCount : Nat
  borderCount : Nat
  numFormats : List Str
  hasHyperlinkStyle : Bool
  hasComments : Bool
deriving DecidableEq, Repr

/-- `prepare_format_properties`, /repo/src/workbook.rs:2551-2567, on the cell formats in index order. -/
def prepareStyles (fs : List Format) (hasHyperlinkStyle hasComments : Bool) : StyleData :=
  let a := prepareFonts (fs.map fun f => { fmt := f })
  let b := prepareFills a.1
  let c := prepareBorders b.1
  let d := prepareNumFormats c.1
  { xfFormats := d.1, fontCount := a.2, fillCount := b.2, borderCount := c.2, numFormats := d.2,
    hasHyperlinkStyle := hasHyperlinkStyle, hasComments := hasComments }

/-! ### Writing the part -/

/-- An optional element. -/
def optTree (b : Bool) (t : Tree) : List Tree := if b then [t] else []

/-- `write_font_underline`, /repo/src/styles.rs:283-300. -/
def underlineTree (u : FormatUnderline) : Tree :=
  .empty "u".toList
    (match u with
    | .double => [("val".toList, "double".toList)]
    | .singleAccounting => [("val".toList, "singleAccounting".toList)]
    | .doubleAccounting => [("val".toList, "doubleAccounting".toList)]
    | _ => [])

/-- `write_vert_align`, /repo/src/styles.rs:315-329. -/
def vertAlignTree (s : FormatScript) : Tree :=
  .empty "vertAlign".toList
    (match s with
    | .superscript => [("val".toList, "superscript".toList)]
    | .subscript => [("val".toList, "subscript".toList)]
    | .none => [])

/-- `write_font_color`, /repo/src/styles.rs:227-245. -/
def fontColorTrees (c : Color) (dxf : Bool) : List Tree :=
  match c with
  | .automatic => []
  | .default => optTree (!dxf) (.empty "color".toList [("theme".toList, "1".toList)])
  | c => [.empty "color".toList c.attributes]

/-- `write_font`, /repo/src/styles.rs:160-217, for a styles part (`is_rich_string_style` false). -/
def fontTree (f : Font) (dxf : Bool) : Tree :=
  .node "font".toList []
    (optTree f.bold (.empty "b".toList []) ++
     optTree f.italic (.empty "i".toList []) ++
     optTree f.strikethrough (.empty "strike".toList []) ++
     optTree (f.underline ≠ .none) (underlineTree f.underline) ++
     optTree (f.script ≠ .none) (vertAlignTree f.script) ++
     optTree (!dxf) (.empty "sz".toList [("val".toList, f.size)]) ++
     fontColorTrees f.color dxf ++
     (if dxf then [] else
       [.empty "name".toList [("val".toList, f.name)]] ++
       optTree (f.family > 0) (.empty "family".toList [("val".toList, showNat f.family)]) ++
       optTree (f.charset > 0) (.empty "charset".toList [("val".toList, showNat f.charset)]) ++
       optTree (f.scheme ≠ []) (.empty "scheme".toList [("val".toList, f.scheme)])))

/-- `write_comment_font`, /repo/src/styles.rs:303-312. -/
def commentFontTree : Tree :=
  .node "font".toList []
    [.empty "sz".toList [("val".toList, "8".toList)],
     .empty "color".toList [("indexed".toList, "81".toList)],
     .empty "name".toList [("val".toList, "Tahoma".toList)],
     .empty "family".toList [("val".toList, "2".toList)]]

/-- `write_fonts`, /repo/src/styles.rs:125-157. -/
def fontsTree (d : StyleData) : Tree :=
  .node "fonts".toList
    [("count".toList, showNat (d.fontCount + if d.hasComments then 1 else 0))]
    ((d.xfFormats.filter (·.hasFont)).map (fun p => fontTree p.fmt.font false) ++
     optTree d.hasComments commentFontTree)

/-- The number of the last hyperlink font, /repo/src/styles.rs:136-148: the loop with the running
`font_id`. -/
def hyperlinkFontId : List PFormat → Nat → Nat → Nat
  | [], _, cur => cur
  | p :: ps, fontId, cur =>
    if p.hasFont then
      hyperlinkFontId ps (fontId + 1) (if p.fmt.font.isHyperlink then fontId else cur)
    else hyperlinkFontId ps fontId cur

/-- `write_default_fill`, /repo/src/styles.rs:353-359. -/
def defaultFillTree (pattern : Str) : Tree :=
  .node "fill".toList [] [.empty "patternFill".toList [("patternType".toList, pattern)]]

/-- `write_fill`, /repo/src/styles.rs:362-418. -/
def fillTree (f : Fill) (dxf : Bool) : Tree :=
  if f.pattern ≠ .none ∧ (f.backgroundColor = .default ∨ f.backgroundColor = .automatic) ∧
      (f.foregroundColor = .default ∨ f.foregroundColor = .automatic) then
    defaultFillTree f.pattern.text
  else
    let swap := !dxf && f.pattern = .solid && f.backgroundColor ≠ .default &&
      f.foregroundColor ≠ .default
    let fg := if swap then f.backgroundColor.attributes else f.foregroundColor.attributes
    let bg := if swap then f.foregroundColor.attributes else f.backgroundColor.attributes
    .node "fill".toList []
      [.node "patternFill".toList
        (if dxf && (f.pattern = .none || f.pattern = .solid) then []
         else [("patternType".toList, f.pattern.text)])
        (optTree (f.foregroundColor ≠ .default && f.foregroundColor ≠ .automatic)
          (.empty "fgColor".toList fg) ++
         [if f.backgroundColor = .default || f.backgroundColor = .automatic then
            .empty "bgColor".toList [("indexed".toList, "64".toList)]
          else .empty "bgColor".toList bg])]

/-- `write_fills`, /repo/src/styles.rs:332-350. -/
def fillsTree (d : StyleData) : Tree :=
  .node "fills".toList [("count".toList, showNat d.fillCount)]
    ([defaultFillTree "none".toList, defaultFillTree "gray125".toList] ++
     (d.xfFormats.filter (·.hasFill)).map (fun p => fillTree p.fmt.fill false))

/-- `write_sub_border`, /repo/src/styles.rs:476-499. -/
def subBorderTree (tag : Str) (style : FormatBorder) (color : Color) : Tree :=
  if style = .none then .empty tag []
  else .node tag [("style".toList, style.text)]
    [.empty "color".toList
      (if color ≠ .default ∧ color ≠ .automatic then color.attributes
       else [("auto".toList, "1".toList)])]

/-- The attributes of a border, /repo/src/styles.rs:439-455. -/
def diagonalAttrs : FormatDiagonalBorder → Attrs
  | .none => []
  | .borderUp => [("diagonalUp".toList, "1".toList)]
  | .borderDown => [("diagonalDown".toList, "1".toList)]
  | .borderUpDown => [("diagonalUp".toList, "1".toList), ("diagonalDown".toList, "1".toList)]

/-- `write_border`, /repo/src/styles.rs:438-473. -/
def borderTree (b : Border) (dxf : Bool) : Tree :=
  .node "border".toList
    (diagonalAttrs b.diagonalType)
    ([subBorderTree "left".toList b.leftStyle b.leftColor,
      subBorderTree "right".toList b.rightStyle b.rightColor,
      subBorderTree "top".toList b.topStyle b.topColor,
      subBorderTree "bottom".toList b.bottomStyle b.bottomColor] ++
     (if dxf then [.empty "vertical".toList [], .empty "horizontal".toList []]
      else [subBorderTree "diagonal".toList b.diagonalStyle b.diagonalColor]))

/-- `write_borders`, /repo/src/styles.rs:421-435. -/
def bordersTree (d : StyleData) : Tree :=
  .node "borders".toList [("count".toList, showNat d.borderCount)]
    ((d.xfFormats.filter (·.hasBorder)).map fun p => borderTree p.fmt.borders false)

/-- `write_hyperlink_style_xf`, /repo/src/styles.rs:535-566. -/
def hyperlinkStyleXf (fontId : Nat) : Tree :=
  .node "xf".toList
    [("numFmtId".toList, "0".toList), ("fontId".toList, showNat fontId),
     ("fillId".toList, "0".toList), ("borderId".toList, "0".toList),
     ("applyNumberFormat".toList, "0".toList), ("applyFill".toList, "0".toList),
     ("applyBorder".toList, "0".toList), ("applyAlignment".toList, "0".toList),
     ("applyProtection".toList, "0".toList)]
    [.empty "alignment".toList [("vertical".toList, "top".toList)],
     .empty "protection".toList [("locked".toList, "0".toList)]]

/-- `write_cell_style_xfs`, /repo/src/styles.rs:502-532. -/
def cellStyleXfsTree (d : StyleData) : Tree :=
  .node "cellStyleXfs".toList
    [("count".toList, if d.hasHyperlinkStyle then "2".toList else "1".toList)]
    ([.empty "xf".toList
      [("numFmtId".toList, "0".toList), ("fontId".toList, "0".toList),
       ("fillId".toList, "0".toList), ("borderId".toList, "0".toList)]] ++
     optTree d.hasHyperlinkStyle (hyperlinkStyleXf (hyperlinkFontId d.xfFormats 0 0)))

/-- `Format::has_alignment`, /repo/src/format.rs:2483-2492. -/
def Alignment.hasAlignment (a : Alignment) : Bool :=
  a.horizontal ≠ .general || !(a.vertical = .general || a.vertical = .bottom) || a.indent ≠ 0 ||
  a.rotation ≠ 0 || a.textWrap || a.shrink || a.readingDirection ≠ 0

/-- `Format::apply_alignment`, /repo/src/format.rs:2496-2504. -/
def Alignment.applyAlignment (a : Alignment) : Bool :=
  a.horizontal ≠ .general || a.vertical ≠ .general || a.indent ≠ 0 ||
  a.rotation ≠ 0 || a.textWrap || a.shrink || a.readingDirection ≠ 0

/-- `Format::has_protection`, /repo/src/format.rs:2507-2509. -/
def Format.hasProtection (f : Format) : Bool := f.hidden || !f.locked

/-- The horizontal alignment used with an indent, /repo/src/styles.rs:676-685. -/
def Alignment.fixedHorizontal (a : Alignment) : FormatAlign :=
  if a.indent > 0 ∧ a.horizontal ≠ .left ∧ a.horizontal ≠ .right ∧ a.horizontal ≠ .distributed ∧
      a.vertical ≠ .top ∧ a.vertical ≠ .bottom ∧ a.vertical ≠ .distributed then .left
  else a.horizontal

/-- An optional attribute. -/
def optAttr (b : Bool) (n : Str) (v : Str) : Attrs := if b then [(n, v)] else []

/-- The `horizontal` attribute, /repo/src/styles.rs:697-720. -/
def horizontalAttrs : FormatAlign → Attrs
  | .center => [("horizontal".toList, "center".toList)]
  | .centerAcross => [("horizontal".toList, "centerContinuous".toList)]
  | .distributed => [("horizontal".toList, "distributed".toList)]
  | .fill => [("horizontal".toList, "fill".toList)]
  | .justify => [("horizontal".toList, "justify".toList)]
  | .left => [("horizontal".toList, "left".toList)]
  | .right => [("horizontal".toList, "right".toList)]
  | _ => []

/-- The `vertical` attribute, /repo/src/styles.rs:723-737. -/
def verticalAttrs : FormatAlign → Attrs
  | .verticalCenter => [("vertical".toList, "center".toList)]
  | .verticalDistributed => [("vertical".toList, "distributed".toList)]
  | .verticalJustify => [("vertical".toList, "justify".toList)]
  | .top => [("vertical".toList, "top".toList)]
  | _ => []

/-- `write_alignment`, /repo/src/styles.rs:668-761. -/
def alignmentTree (a : Alignment) : Tree :=
  let h := a.fixedHorizontal
  let shrink := a.shrink && !(a.textWrap || h = .fill || h = .justify || h = .distributed)
  .empty "alignment".toList
    (horizontalAttrs h ++
     verticalAttrs a.vertical ++
     optAttr (a.rotation ≠ 0) "textRotation".toList (showNat a.rotation) ++
     optAttr (a.indent ≠ 0) "indent".toList (showNat a.indent) ++
     optAttr a.textWrap "wrapText".toList "1".toList ++
     optAttr shrink "shrinkToFit".toList "1".toList ++
     optAttr (a.readingDirection > 0 && a.readingDirection ≤ 2) "readingOrder".toList
       (showNat a.readingDirection))

/-- `write_protection`, /repo/src/styles.rs:653-665. -/
def protectionTree (f : Format) : Tree :=
  .empty "protection".toList
    (optAttr (!f.locked) "locked".toList "0".toList ++
     optAttr f.hidden "hidden".toList "1".toList)

/-- `write_xf_format_extensions`, /repo/src/styles.rs:875-891. -/
def xfExtTree : Tree :=
  .node "extLst".toList []
    [.node "ext".toList
      [("uri".toList, "{C7286773-470A-42A8-94C5-96B5CB345126}".toList),
       ("xmlns:xfpb".toList,
        "http://schemas.microsoft.com/office/spreadsheetml/2022/featurepropertybag".toList)]
      [.empty "xfpb:xfComplement".toList [("i".toList, "0".toList)]]]

/-- The attributes of `write_cell_xf`, /repo/src/styles.rs:585-626. -/
def xfAttrs (p : PFormat) : Attrs :=
  let hl := p.fmt.font.isHyperlink
  [("numFmtId".toList, showNat p.fmt.numFormatIndex), ("fontId".toList, showNat p.fontIndex),
   ("fillId".toList, showNat p.fillIndex), ("borderId".toList, showNat p.borderIndex),
   ("xfId".toList, if hl then "1".toList else "0".toList)] ++
  optAttr p.fmt.quotePrefix "quotePrefix".toList "1".toList ++
  optAttr (p.fmt.numFormatIndex > 0) "applyNumberFormat".toList "1".toList ++
  optAttr (p.fontIndex > 0 && !hl) "applyFont".toList "1".toList ++
  optAttr (p.fillIndex > 0) "applyFill".toList "1".toList ++
  optAttr (p.borderIndex > 0) "applyBorder".toList "1".toList ++
  optAttr (p.fmt.alignment.applyAlignment || hl) "applyAlignment".toList "1".toList ++
  optAttr (p.fmt.hasProtection || hl) "applyProtection".toList "1".toList

/-- `write_cell_xf`, /repo/src/styles.rs:584-650. -/
def xfTree (p : PFormat) : Tree :=
  if p.fmt.alignment.hasAlignment || p.fmt.hasProtection || p.fmt.checkbox then
    .node "xf".toList (xfAttrs p)
      (optTree p.fmt.alignment.hasAlignment (alignmentTree p.fmt.alignment) ++
       optTree p.fmt.hasProtection (protectionTree p.fmt) ++
       optTree p.fmt.checkbox xfExtTree)
  else .empty "xf".toList (xfAttrs p)

/-- `write_cell_xfs`, /repo/src/styles.rs:569-581. -/
def cellXfsTree (d : StyleData) : Tree :=
  .node "cellXfs".toList [("count".toList, showNat d.xfFormats.length)] (d.xfFormats.map xfTree)

/-- `write_cell_styles`, /repo/src/styles.rs:764-795. -/
def cellStylesTree (d : StyleData) : Tree :=
  .node "cellStyles".toList
    [("count".toList, if d.hasHyperlinkStyle then "2".toList else "1".toList)]
    (optTree d.hasHyperlinkStyle
      (.empty "cellStyle".toList
        [("name".toList, "Hyperlink".toList), ("xfId".toList, "1".toList),
         ("builtinId".toList, "8".toList)]) ++
     [.empty "cellStyle".toList
        [("name".toList, "Normal".toList), ("xfId".toList, "0".toList),
         ("builtinId".toList, "0".toList)]])

/-- `write_num_fmt`, /repo/src/styles.rs:865-872. -/
def numFmtTree (i : Nat) (code : Str) : Tree :=
  .empty "numFmt".toList [("numFmtId".toList, showNat i), ("formatCode".toList, code)]

/-- The `numFmt` loop, /repo/src/styles.rs:857-859. -/
def numFmtTrees : Nat → List Str → List Tree
  | _, [] => []
  | i, s :: t => numFmtTree (i + 164) s :: numFmtTrees (i + 1) t

/-- `write_num_fmts`, /repo/src/styles.rs:848-862. -/
def numFmtsTrees (nf : List Str) : List Tree :=
  if nf = [] then []
  else [.node "numFmts".toList [("count".toList, showNat nf.length)] (numFmtTrees 0 nf)]

/-- `write_table_styles`, /repo/src/styles.rs:837-845. -/
def tableStylesTree : Tree :=
  .empty "tableStyles".toList
    [("count".toList, "0".toList), ("defaultTableStyle".toList, "TableStyleMedium9".toList),
     ("defaultPivotStyle".toList, "PivotStyleLight16".toList)]

/-- `assemble_xml_file`, /repo/src/styles.rs:77-122; the `dxfs` element (/repo/src/styles.rs:798-834) is
a parameter. -/
def stylesTree (d : StyleData) (dxfs : Tree) : Tree :=
  .node "styleSheet".toList
    [("xmlns".toList, "http://schemas.openxmlformats.org/spreadsheetml/2006/main".toList)]
    (numFmtsTrees d.numFormats ++
     [fontsTree d, fillsTree d, bordersTree d, cellStyleXfsTree d, cellXfsTree d, cellStylesTree d,
      dxfs, tableStylesTree])

/-- The styles part, /repo/src/packager.rs:669-687. -/
def stylesPart (d : StyleData) (dxfs : Tree) : Str := writePart (stylesTree d dxfs)

end Verif
