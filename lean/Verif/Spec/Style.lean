import Verif.Model.Style
import Verif.Spec.Xml
import Verif.Spec.Dec
/-!
How a reader of a styles part sees the format of a cell, and what the user of `Format` meant.

The reader follows ECMA-376 part 1, 18.8: `cellXfs` holds the formats, their `fontId`, `fillId` and
`borderId` are positions in `fonts`, `fills` and `borders`, `numFmtId` names an entry of `numFmts` or
a built-in format, and `xfId` is a position in `cellStyleXfs`.
-/
namespace Verif.Spec
open Verif

/-- Attributes of a parsed element. -/
abbrev NodeAttrs := List (Text × Text)

/-- The first child element with a tag. -/
def child (t : Text) : List Node → Option (NodeAttrs × List Node)
  | [] => none
  | .elem t' as ks :: r => if t' = t then some (as, ks) else child t r
  | .text _ :: r => child t r

/-- The child elements, which must all have the tag. -/
def childrenAll (t : Text) : List Node → Option (List (NodeAttrs × List Node))
  | [] => some []
  | .elem t' as ks :: r => if t' = t then (childrenAll t r).map ((as, ks) :: ·) else none
  | .text _ :: _ => none

/-- A colour as a reader sees it. A tint is in percent: negative is darker, positive lighter. -/
inductive ColorSeen where
  | rgb (n : Nat)
  | theme (index : Nat) (tint : Int)
  | indexed (n : Nat)
  | auto
deriving DecidableEq, Repr

/-- An unsigned decimal fraction with optional exponent `E-n`, as digits and number of places. -/
def readFraction (s : Text) : Option (Nat × Nat) :=
  let mant := s.takeWhile (· ≠ 'E')
  let places := match s.dropWhile (· ≠ 'E') with
    | 'E' :: '-' :: e => readNat e
    | [] => some 0
    | _ => none
  let int := mant.takeWhile (· ≠ '.')
  let frac := (mant.dropWhile (· ≠ '.')).drop 1
  if (int ++ frac).all isDigit && int ≠ [] then
    places.map fun p => (digitsValue (int ++ frac), frac.length + p)
  else none

/-- A tint attribute, rounded to percent. -/
def readTint (s : Text) : Option Int :=
  let body := if s.head? = some '-' then s.drop 1 else s
  (readFraction body).map fun q =>
    let pct : Nat := (q.1 * 100 + 10 ^ q.2 / 2) / 10 ^ q.2
    if s.head? = some '-' then -(pct : Int) else (pct : Int)

/-- The attributes of a `color`, `fgColor` or `bgColor` element. -/
def readColor (as : NodeAttrs) : Option ColorSeen :=
  match as.lookup "rgb".toList, as.lookup "theme".toList, as.lookup "indexed".toList,
    as.lookup "auto".toList with
  | some s, none, none, none =>
    if s.length = 8 && s.take 2 = "FF".toList then (numeral hexDigit? 16 (s.drop 2)).map .rgb
    else none
  | none, some s, none, none =>
    match readNat s, as.lookup "tint".toList with
    | some n, none => some (.theme n 0)
    | some n, some t => (readTint t).map (.theme n)
    | none, _ => none
  | none, none, some s, none => (readNat s).map .indexed
  | none, none, none, some s => if s = "1".toList then some .auto else none
  | _, _, _, _ => none

/-- A font as a reader sees it. -/
structure FontSeen where
  bold : Bool
  italic : Bool
  strike : Bool
  underline : Option Text
  script : Option Text
  size : Text
  color : ColorSeen
  name : Text
  family : Nat
  charset : Nat
  scheme : Text
deriving DecidableEq, Repr

/-- The `val` attribute of a child element. -/
def childVal (t : Text) (ks : List Node) : Option Text :=
  (child t ks).bind fun c => c.1.lookup "val".toList

/-- The colour of a font; automatic without a `color` element. -/
def readFontColor (ks : List Node) : Option ColorSeen :=
  match child "color".toList ks with
  | none => some .auto
  | some c => readColor c.1

/-- A `font` element, 18.8.22. -/
def readFont (ks : List Node) : Option FontSeen :=
  match childVal "sz".toList ks, childVal "name".toList ks,
    readFontColor ks with
  | some size, some name, some color =>
    some
      { bold := (child "b".toList ks).isSome
        italic := (child "i".toList ks).isSome
        strike := (child "strike".toList ks).isSome
        underline := (child "u".toList ks).map fun c => (c.1.lookup "val".toList).getD "single".toList
        script := childVal "vertAlign".toList ks
        size := size
        color := color
        name := name
        family := ((childVal "family".toList ks).bind readNat).getD 0
        charset := ((childVal "charset".toList ks).bind readNat).getD 0
        scheme := (childVal "scheme".toList ks).getD [] }
  | _, _, _ => none

/-- A fill as seen on screen: nothing, one colour, or a pattern with two colours. -/
inductive FillSeen where
  | none
  | solid (c : ColorSeen)
  | pattern (name : Text) (fg bg : ColorSeen)
deriving DecidableEq, Repr

/-- A colour child of a pattern fill; colour index 64 is the system colour, i.e. automatic. -/
def readFillColor (t : Text) (ks : List Node) : Option ColorSeen :=
  match child t ks with
  | none => some .auto
  | some c => (readColor c.1).map fun x => if x = .indexed 64 then .auto else x

/-- A `fill` element, 18.8.20/18.8.32: the visible colour of a solid fill is the foreground. -/
def readFill (ks : List Node) : Option FillSeen :=
  (child "patternFill".toList ks).bind fun p =>
    match p.1.lookup "patternType".toList, readFillColor "fgColor".toList p.2,
      readFillColor "bgColor".toList p.2 with
    | some t, some fg, some bg =>
      some (if t = "none".toList then .none
        else if t = "solid".toList then .solid fg
        else .pattern t fg bg)
    | _, _, _ => none

/-- A border side: nothing, or a style with a colour. -/
abbrev SideSeen := Option (Text × ColorSeen)

/-- A border as a reader sees it. -/
structure BorderSeen where
  left : SideSeen
  right : SideSeen
  top : SideSeen
  bottom : SideSeen
  diagonal : SideSeen
  diagonalUp : Bool
  diagonalDown : Bool
deriving DecidableEq, Repr

/-- A side element. The outer `Option` is `none` if it cannot be read. -/
def readSide (t : Text) (ks : List Node) : Option SideSeen :=
  match child t ks with
  | none => none
  | some (as, inner) =>
    match as.lookup "style".toList with
    | none => some none
    | some s =>
      match child "color".toList inner with
      | none => none
      | some c => (readColor c.1).map fun x => some (s, x)

/-- A `border` element, 18.8.4. -/
def readBorder (as : NodeAttrs) (ks : List Node) : Option BorderSeen :=
  match readSide "left".toList ks, readSide "right".toList ks, readSide "top".toList ks,
    readSide "bottom".toList ks, readSide "diagonal".toList ks with
  | some l, some r, some t, some b, some d =>
    some { left := l, right := r, top := t, bottom := b, diagonal := d,
           diagonalUp := as.lookup "diagonalUp".toList = some "1".toList,
           diagonalDown := as.lookup "diagonalDown".toList = some "1".toList }
  | _, _, _, _, _ => none

/-- Text direction: an angle in degrees, or letters stacked vertically. -/
inductive RotationSeen where
  | degrees (d : Int)
  | stacked
deriving DecidableEq, Repr

/-- 18.8.1 `textRotation`: 0–90 counter-clockwise, 91–180 clockwise from 1, 255 stacked. -/
def rotationOf (n : Nat) : RotationSeen :=
  if n = 255 then .stacked else if n ≤ 90 then .degrees n else .degrees (90 - (n : Int))

/-- Cell alignment as a reader sees it. -/
structure AlignSeen where
  horizontal : Text
  vertical : Text
  rotation : RotationSeen
  indent : Nat
  wrap : Bool
  shrink : Bool
  readingOrder : Nat
deriving DecidableEq, Repr

/-- An `alignment` element (no attributes if it is missing), 18.8.1. -/
def readAlign (as : NodeAttrs) : AlignSeen :=
  { horizontal := (as.lookup "horizontal".toList).getD "general".toList
    vertical := (as.lookup "vertical".toList).getD "bottom".toList
    rotation := rotationOf (((as.lookup "textRotation".toList).bind readNat).getD 0)
    indent := ((as.lookup "indent".toList).bind readNat).getD 0
    wrap := as.lookup "wrapText".toList = some "1".toList
    shrink := as.lookup "shrinkToFit".toList = some "1".toList
    readingOrder := ((as.lookup "readingOrder".toList).bind readNat).getD 0 }

/-- A number format: built in, or a format code. -/
inductive NumSeen where
  | builtIn (n : Nat)
  | code (s : Text)
deriving DecidableEq, Repr

/-- The format of a cell as a reader sees it. -/
structure FormatSeen where
  num : NumSeen
  font : FontSeen
  fill : FillSeen
  border : BorderSeen
  align : AlignSeen
  locked : Bool
  hidden : Bool
  quotePrefix : Bool
  checkbox : Bool
  style : Text
deriving DecidableEq, Repr

/-- A numeric attribute. -/
def attrNat (n : Text) (as : NodeAttrs) : Option Nat := (as.lookup n).bind readNat

/-- The number format with an id: the entry of `numFmts` with this id, otherwise the built-in one. -/
def readNum (id : Nat) (numFmts : List (NodeAttrs × List Node)) : Option NumSeen :=
  match numFmts.find? (fun e => attrNat "numFmtId".toList e.1 == some id) with
  | some e => (e.1.lookup "formatCode".toList).map .code
  | none => some (.builtIn id)

/-- The name of the cell style that stands for position `id` of `cellStyleXfs`. -/
def readStyleName (id : Nat) (styles : List (NodeAttrs × List Node)) : Option Text :=
  (styles.find? (fun e => attrNat "xfId".toList e.1 == some id)).bind fun e => e.1.lookup "name".toList

/-- The children of a list element, in order; the `count` attribute must be right. -/
def readItems (list item : Text) (root : List Node) : Option (List (NodeAttrs × List Node)) :=
  (child list root).bind fun c =>
    (childrenAll item c.2).bind fun l =>
      if attrNat "count".toList c.1 = some l.length then some l else none

/-- The format number `i` of a styles part. -/
def readXf (part : Node) (i : Nat) : Option FormatSeen :=
  match part with
  | .elem root _ ks =>
    if root ≠ "styleSheet".toList then none
    else
      match readItems "fonts".toList "font".toList ks, readItems "fills".toList "fill".toList ks,
        readItems "borders".toList "border".toList ks,
        readItems "cellStyleXfs".toList "xf".toList ks, readItems "cellXfs".toList "xf".toList ks,
        readItems "cellStyles".toList "cellStyle".toList ks with
      | some fonts, some fills, some borders, some styleXfs, some xfs, some styles =>
        let numFmts := (readItems "numFmts".toList "numFmt".toList ks).getD []
        (xfs[i]?).bind fun xf =>
          match attrNat "numFmtId".toList xf.1, attrNat "fontId".toList xf.1,
            attrNat "fillId".toList xf.1, attrNat "borderId".toList xf.1,
            attrNat "xfId".toList xf.1 with
          | some num, some font, some fill, some border, some xfId =>
            match readNum num numFmts, (fonts[font]?).bind fun e => readFont e.2,
              (fills[fill]?).bind fun e => readFill e.2,
              (borders[border]?).bind fun e => readBorder e.1 e.2,
              if xfId < styleXfs.length then readStyleName xfId styles else none with
            | some num, some font, some fill, some border, some style =>
              let prot := ((child "protection".toList xf.2).map Prod.fst).getD []
              some
                { num := num, font := font, fill := fill, border := border
                  align := readAlign (((child "alignment".toList xf.2).map Prod.fst).getD [])
                  locked := prot.lookup "locked".toList ≠ some "0".toList
                  hidden := prot.lookup "hidden".toList = some "1".toList
                  quotePrefix := xf.1.lookup "quotePrefix".toList = some "1".toList
                  checkbox := (child "extLst".toList xf.2).isSome
                  style := style }
            | _, _, _, _, _ => none
          | _, _, _, _, _ => none
      | _, _, _, _, _, _ => none
  | .text _ => none

/-! ### What the user meant -/

/-- Excel's theme palette: how much darker (negative) or lighter (positive) a shade is, in percent. -/
def shadePercent (color shade : Nat) : Int :=
  (match color with
   | 0 => [0, -5, -15, -25, -35, -50]
   | 1 => [0, 50, 35, 25, 15, 5]
   | 2 => [0, -10, -25, -50, -75, -90]
   | _ => [0, 80, 60, 40, -25, -50] : List Int).getD shade 0

/-- The colour meant by a `Color`. -/
def colorMeant : Color → ColorSeen
  | .rgb n => .rgb n
  | .theme c s => .theme c (shadePercent c s)
  | .default | .automatic => .auto
  | .black => .rgb 0x000000
  | .blue => .rgb 0x0000FF
  | .brown => .rgb 0x800000
  | .cyan => .rgb 0x00FFFF
  | .gray => .rgb 0x808080
  | .green => .rgb 0x008000
  | .lime => .rgb 0x00FF00
  | .magenta => .rgb 0xFF00FF
  | .navy => .rgb 0x000080
  | .orange => .rgb 0xFF6600
  | .pink => .rgb 0xFFC0CB
  | .purple => .rgb 0x800080
  | .red => .rgb 0xFF0000
  | .silver => .rgb 0xC0C0C0
  | .white => .rgb 0xFFFFFF
  | .yellow => .rgb 0xFFFF00

/-- The font meant; the default colour of text is the first dark colour of the theme. -/
def fontMeant (f : Font) : FontSeen :=
  { bold := f.bold
    italic := f.italic
    strike := f.strikethrough
    underline := match f.underline with
      | .none => none
      | .single => some "single".toList
      | .double => some "double".toList
      | .singleAccounting => some "singleAccounting".toList
      | .doubleAccounting => some "doubleAccounting".toList
    script := match f.script with
      | .none => none
      | .superscript => some "superscript".toList
      | .subscript => some "subscript".toList
    size := f.size
    color := if f.color = .default then .theme 1 0 else colorMeant f.color
    name := f.name
    family := f.family
    charset := f.charset
    scheme := f.scheme }

/-- ST_PatternType, 18.18.55. -/
def patternName : FormatPattern → Text
  | .none => "none".toList
  | .solid => "solid".toList
  | .mediumGray => "mediumGray".toList
  | .darkGray => "darkGray".toList
  | .lightGray => "lightGray".toList
  | .darkHorizontal => "darkHorizontal".toList
  | .darkVertical => "darkVertical".toList
  | .darkDown => "darkDown".toList
  | .darkUp => "darkUp".toList
  | .darkGrid => "darkGrid".toList
  | .darkTrellis => "darkTrellis".toList
  | .lightHorizontal => "lightHorizontal".toList
  | .lightVertical => "lightVertical".toList
  | .lightDown => "lightDown".toList
  | .lightUp => "lightUp".toList
  | .lightGrid => "lightGrid".toList
  | .lightTrellis => "lightTrellis".toList
  | .gray125 => "gray125".toList
  | .gray0625 => "gray0625".toList

/-- The fill meant. With no pattern or the solid one, a single colour fills the cell; with a solid
pattern and two colours the background colour does. -/
def fillMeant (f : Fill) : FillSeen :=
  let bg := decide (f.backgroundColor ≠ .default)
  let fg := decide (f.foregroundColor ≠ .default)
  match f.pattern, bg, fg with
  | .none, false, false => .none
  | .none, true, true => .none
  | .none, true, false => .solid (colorMeant f.backgroundColor)
  | .none, false, true => .solid (colorMeant f.foregroundColor)
  | .solid, false, _ => .solid (colorMeant f.foregroundColor)
  | .solid, true, _ => .solid (colorMeant f.backgroundColor)
  | p, _, _ => .pattern (patternName p) (colorMeant f.foregroundColor) (colorMeant f.backgroundColor)

/-- ST_BorderStyle, 18.18.3. -/
def borderName : FormatBorder → Text
  | .none => "none".toList
  | .thin => "thin".toList
  | .medium => "medium".toList
  | .dashed => "dashed".toList
  | .dotted => "dotted".toList
  | .thick => "thick".toList
  | .double => "double".toList
  | .hair => "hair".toList
  | .mediumDashed => "mediumDashed".toList
  | .dashDot => "dashDot".toList
  | .mediumDashDot => "mediumDashDot".toList
  | .dashDotDot => "dashDotDot".toList
  | .mediumDashDotDot => "mediumDashDotDot".toList
  | .slantDashDot => "slantDashDot".toList

/-- A side of a border. -/
def sideMeant (s : FormatBorder) (c : Color) : SideSeen :=
  if s = .none then none else some (borderName s, colorMeant c)

/-- The border meant. -/
def borderMeant (b : Border) : BorderSeen :=
  { left := sideMeant b.leftStyle b.leftColor
    right := sideMeant b.rightStyle b.rightColor
    top := sideMeant b.topStyle b.topColor
    bottom := sideMeant b.bottomStyle b.bottomColor
    diagonal := sideMeant b.diagonalStyle b.diagonalColor
    diagonalUp := b.diagonalType = .borderUp || b.diagonalType = .borderUpDown
    diagonalDown := b.diagonalType = .borderDown || b.diagonalType = .borderUpDown }

/-- ST_HorizontalAlignment, 18.18.40. -/
def horizontalName : FormatAlign → Text
  | .left => "left".toList
  | .center => "center".toList
  | .right => "right".toList
  | .fill => "fill".toList
  | .justify => "justify".toList
  | .centerAcross => "centerContinuous".toList
  | .distributed => "distributed".toList
  | _ => "general".toList

/-- ST_VerticalAlignment, 18.18.88; the default is the bottom. -/
def verticalName : FormatAlign → Text
  | .top => "top".toList
  | .verticalCenter => "center".toList
  | .verticalJustify => "justify".toList
  | .verticalDistributed => "distributed".toList
  | _ => "bottom".toList

/-- The alignment meant. An indent with an alignment that has none (and no alignment to the top or
bottom) makes the cell left aligned; shrinking is off for wrapped, filled, justified and distributed
text. -/
def alignMeant (a : Alignment) : AlignSeen :=
  let h : FormatAlign :=
    if a.indent ≠ 0 ∧ a.horizontal ∉ [FormatAlign.left, .right, .distributed] ∧
        a.vertical ∉ [FormatAlign.top, .bottom] then .left else a.horizontal
  { horizontal := horizontalName h
    vertical := verticalName a.vertical
    rotation := rotationOf a.rotation
    indent := a.indent
    wrap := a.textWrap
    shrink := a.shrink && !a.textWrap && decide (h ∉ [FormatAlign.fill, .justify, .distributed])
    readingOrder := a.readingDirection }

/-- The number format meant: an index set by the user, otherwise the format string. -/
def numMeant (f : Format) : NumSeen :=
  if f.numFormatIndex ≠ 0 then .builtIn f.numFormatIndex
  else if f.numFormat = [] then .builtIn 0 else .code f.numFormat

/-- The format meant. -/
def formatMeant (f : Format) : FormatSeen :=
  { num := numMeant f
    font := fontMeant f.font
    fill := fillMeant f.fill
    border := borderMeant f.borders
    align := alignMeant f.alignment
    locked := f.locked
    hidden := f.hidden
    quotePrefix := f.quotePrefix
    checkbox := f.checkbox
    style := if f.font.isHyperlink then "Hyperlink".toList else "Normal".toList }

/-! ### What a sequence of calls asks for -/

/-- The last call that says something about a property decides it. -/
def lastOf {α : Type} (says : FormatCall → Option α) (default : α) (cs : List FormatCall) : α :=
  ((cs.filterMap says).getLast?).getD default

/-- A colour a setter accepts; invalid ones are ignored. -/
def validColor (c : Color) : Option Color := if c.isValid then some c else none

/-- The font asked for. A hyperlink format is underlined, in the hyperlink colour of the theme and
without font scheme; choosing a font other than Calibri removes the scheme. -/
def fontAsked (cs : List FormatCall) : Font :=
  { bold := lastOf (fun | .setBold => some true | .unsetBold => some false | _ => none) false cs
    italic := lastOf (fun | .setItalic => some true | .unsetItalic => some false | _ => none) false cs
    underline := lastOf (fun | .setUnderline u => some u | .setHyperlink => some .single | _ => none)
      .none cs
    name := lastOf (fun | .setFontName s => some s | _ => none) "Calibri".toList cs
    size := lastOf (fun | .setFontSize s => some s | _ => none) "11".toList cs
    color := lastOf (fun
      | .setFontColor c => validColor c
      | .setHyperlink => some (.theme 10 0)
      | _ => none) .default cs
    strikethrough := lastOf
      (fun | .setFontStrikethrough => some true | .unsetFontStrikethrough => some false | _ => none)
      false cs
    script := lastOf (fun | .setFontScript s => some s | _ => none) .none cs
    family := lastOf (fun | .setFontFamily n => some n | _ => none) 2 cs
    charset := lastOf (fun | .setFontCharset n => some n | _ => none) 0 cs
    scheme := lastOf (fun
      | .setFontScheme s => some s
      | .setFontName s => if s = "Calibri".toList then none else some []
      | .setHyperlink => some []
      | _ => none) "minor".toList cs
    isHyperlink := lastOf (fun
      | .setHyperlink => some true
      | .unsetHyperlinkStyle => some false
      | _ => none) false cs }

/-- The fill asked for. -/
def fillAsked (cs : List FormatCall) : Fill :=
  { pattern := lastOf (fun | .setPattern p => some p | _ => none) .none cs
    backgroundColor := lastOf (fun | .setBackgroundColor c => validColor c | _ => none) .default cs
    foregroundColor := lastOf (fun | .setForegroundColor c => validColor c | _ => none) .default cs }

/-- The borders asked for. -/
def borderAsked (cs : List FormatCall) : Border :=
  { topStyle := lastOf (fun | .setBorder b | .setBorderTop b => some b | _ => none) .none cs
    bottomStyle := lastOf (fun | .setBorder b | .setBorderBottom b => some b | _ => none) .none cs
    leftStyle := lastOf (fun | .setBorder b | .setBorderLeft b => some b | _ => none) .none cs
    rightStyle := lastOf (fun | .setBorder b | .setBorderRight b => some b | _ => none) .none cs
    topColor := lastOf (fun | .setBorderColor c | .setBorderTopColor c => validColor c | _ => none)
      .default cs
    bottomColor := lastOf
      (fun | .setBorderColor c | .setBorderBottomColor c => validColor c | _ => none) .default cs
    leftColor := lastOf (fun | .setBorderColor c | .setBorderLeftColor c => validColor c | _ => none)
      .default cs
    rightColor := lastOf (fun | .setBorderColor c | .setBorderRightColor c => validColor c | _ => none)
      .default cs
    diagonalStyle := lastOf (fun | .setBorderDiagonal b => some b | _ => none) .none cs
    diagonalColor := lastOf (fun | .setBorderDiagonalColor c => validColor c | _ => none) .default cs
    diagonalType := lastOf (fun | .setBorderDiagonalType d => some d | _ => none) .none cs }

/-- Alignments across the cell. -/
def isHorizontal (a : FormatAlign) : Bool :=
  decide (a ∈ [FormatAlign.left, .center, .right, .fill, .justify, .centerAcross, .distributed])

/-- The alignment asked for (its rotation is `rotationAsked`). `General` resets both directions. -/
def alignAsked (cs : List FormatCall) : Alignment :=
  { horizontal := lastOf (fun
      | .setAlign a => if a = .general || isHorizontal a then some a else none
      | _ => none) .general cs
    vertical := lastOf (fun
      | .setAlign a => if a = .general || !isHorizontal a then some a else none
      | _ => none) .general cs
    textWrap := lastOf (fun | .setTextWrap => some true | .unsetTextWrap => some false | _ => none)
      false cs
    indent := lastOf (fun | .setIndent n => some n | _ => none) 0 cs
    shrink := lastOf (fun | .setShrink => some true | .unsetShrink => some false | _ => none) false cs
    readingDirection := lastOf
      (fun | .setReadingDirection n => if n ≤ 2 then some n else none | _ => none) 0 cs }

/-- The number format the calls ask for: the last one wins. -/
def numAsked (cs : List FormatCall) : NumSeen :=
  cs.foldl (fun cur c => match c with
    | .setNumFormat s => if s = [] then .builtIn 0 else .code s
    | .setNumFormatIndex n => .builtIn n
    | _ => cur) (.builtIn 0)

/-- The text direction the calls ask for: the last angle from -90 to 90, or 270 for stacked text. -/
def rotationAsked (cs : List FormatCall) : RotationSeen :=
  cs.foldl (fun cur c => match c with
    | .setRotation r =>
      if r = 270 then .stacked else if -90 ≤ r ∧ r ≤ 90 then .degrees r else cur
    | _ => cur) (.degrees 0)

/-- No format string is set after a format index, and index 0 (no format) is not set: see
`C14_number_format_ignored`. -/
def numOrderOk : Bool → List FormatCall → Bool
  | _, [] => true
  | indexSeen, .setNumFormat _ :: r => !indexSeen && numOrderOk indexSeen r
  | _, .setNumFormatIndex n :: r => n != 0 && numOrderOk true r
  | indexSeen, _ :: r => numOrderOk indexSeen r

/-- The look asked for. -/
def lookAsked (cs : List FormatCall) : FormatSeen :=
  { num := numAsked cs
    font := fontMeant (fontAsked cs)
    fill := fillMeant (fillAsked cs)
    border := borderMeant (borderAsked cs)
    align := { alignMeant (alignAsked cs) with rotation := rotationAsked cs }
    locked := lastOf (fun | .setLocked => some true | .setUnlocked => some false | _ => none) true cs
    hidden := lastOf (fun | .setHidden => some true | .unsetHidden => some false | _ => none) false cs
    quotePrefix := lastOf
      (fun | .setQuotePrefix => some true | .unsetQuotePrefix => some false | _ => none) false cs
    checkbox := lastOf (fun | .setCheckbox => some true | .unsetCheckbox => some false | _ => none)
      false cs
    style := if (fontAsked cs).isHyperlink then "Hyperlink".toList else "Normal".toList }

/-- Texts a user can give that XML attributes can carry (no control characters). -/
def callSafe : FormatCall → Bool
  | .setNumFormat s | .setFontName s | .setFontSize s | .setFontScheme s => attrSafe s
  | .setNumFormatIndex n => decide (n < 164)
  | _ => true

/-- A solid fill with one automatic and one other colour (see `C14_automatic_solid_fill`). -/
def mixedAutomatic (f : Fill) : Bool :=
  decide (f.pattern = .solid) && decide (f.backgroundColor ≠ .default) &&
  decide (f.foregroundColor ≠ .default) &&
  (decide (f.backgroundColor = .automatic) != decide (f.foregroundColor = .automatic))

/-- Calls that set a property to its default value (or unset it); such a call does not survive a
merge. -/
def setsDefault : FormatCall → Bool
  | .setNumFormat s => decide (s = [])
  | .setNumFormatIndex n => decide (n = 0)
  | .unsetBold | .unsetItalic | .unsetFontStrikethrough | .unsetTextWrap | .unsetShrink
  | .unsetHyperlinkStyle | .setLocked | .unsetHidden | .unsetQuotePrefix | .unsetCheckbox => true
  | .setFontColor c | .setBackgroundColor c | .setForegroundColor c | .setBorderColor c
  | .setBorderTopColor c | .setBorderBottomColor c | .setBorderLeftColor c | .setBorderRightColor c
  | .setBorderDiagonalColor c => decide (c = .default)
  | .setFontName s => decide (s = "Calibri".toList)
  | .setFontSize s => decide (s = "11".toList)
  | .setFontScheme s => decide (s = "minor".toList)
  | .setFontFamily n => decide (n = 2)
  | .setFontCharset n => decide (n = 0)
  | .setUnderline u => decide (u = .none)
  | .setFontScript s => decide (s = .none)
  | .setAlign a => decide (a = .general)
  | .setIndent n => decide (n = 0)
  | .setRotation r => decide (r = 0)
  | .setReadingDirection n => decide (n = 0)
  | .setPattern p => decide (p = .none)
  | .setBorder b | .setBorderTop b | .setBorderBottom b | .setBorderLeft b | .setBorderRight b
  | .setBorderDiagonal b => decide (b = .none)
  | .setBorderDiagonalType d => decide (d = .none)
  | _ => false

/-- Excel takes a part of a cell format that differs from the cell's named style only when the `xf`
element says so with the matching `apply` flag: every non-default part must be flagged, except the
font of the built-in hyperlink style (`xfId` 1), which the named style has itself. -/
def flagSet (a : Text) (as : NodeAttrs) : Prop := as.lookup a = some "1".toList

/-- See `flagSet`. -/
def allApplied (xf : NodeAttrs × List Node) : Prop :=
  (attrNat "numFmtId".toList xf.1 ≠ some 0 → flagSet "applyNumberFormat".toList xf.1) ∧
  (attrNat "fontId".toList xf.1 ≠ some 0 →
    flagSet "applyFont".toList xf.1 ∨ attrNat "xfId".toList xf.1 = some 1) ∧
  (attrNat "fillId".toList xf.1 ≠ some 0 → flagSet "applyFill".toList xf.1) ∧
  (attrNat "borderId".toList xf.1 ≠ some 0 → flagSet "applyBorder".toList xf.1) ∧
  (child "alignment".toList xf.2 ≠ none → flagSet "applyAlignment".toList xf.1) ∧
  (child "protection".toList xf.2 ≠ none → flagSet "applyProtection".toList xf.1)

end Verif.Spec
