import Verif.Model.Drawing
import Verif.Spec.Chart
import Verif.Spec.Setup
import Verif.Spec.DocProps
/-!
How a reader sees a drawing part (ECMA-376 part 1, 20.1, 20.5 and 21.1), and what was asked for (C71, C72).
-/
namespace Verif.Spec
open Verif

/-! ### Colours -/

/-- A colour in a drawing: the colour, its opacity and its shade in percent. -/
structure DrawColour where
  color : ColorSeen
  opacity : Nat := 100
  shade : Nat := 100
deriving DecidableEq, Repr

/-- The colours of a scheme, 20.1.10.54, by their index in the theme. -/
def schemeIndex (s : Text) : Option Nat :=
  [("bg1".toList, 0), ("lt1".toList, 0), ("tx1".toList, 1), ("dk1".toList, 1), ("bg2".toList, 2), ("tx2".toList, 3),
   ("accent1".toList, 4), ("accent2".toList, 5), ("accent3".toList, 6), ("accent4".toList, 7), ("accent5".toList, 8),
   ("accent6".toList, 9)].lookup s

/-- The number in the `val` attribute of a child; the default if there is no such child. -/
def colourVal (t : Text) (default : Nat) (ks : List Node) : Option Nat :=
  match child t ks with
  | none => some default
  | some e => attrNat "val".toList e.1

/-- How much darker (negative) or lighter a colour is made by `lumMod` and `lumOff`, in percent. -/
def readLum (mod off : Nat) : Option Int :=
  if off = 0 then some ((mod : Int) / 1000 - 100) else if mod + off = 100000 then some ((off : Int) / 1000) else none

/-- The colour element that is the only child. -/
def readDrawColour : List Node → Option DrawColour
  | [.elem t as ks] =>
    if t = "a:srgbClr".toList then
      match as.lookup "val".toList, colourVal "a:alpha".toList 100000 ks with
      | some v, some a => if v.length = 6 then (numeral hexDigit? 16 v).map fun n => { color := .rgb n, opacity := a / 1000 } else none
      | _, _ => none
    else if t = "a:schemeClr".toList then
      match (as.lookup "val".toList).bind schemeIndex, colourVal "a:lumMod".toList 100000 ks, colourVal "a:lumOff".toList 0 ks,
        colourVal "a:alpha".toList 100000 ks, colourVal "a:shade".toList 100000 ks with
      | some i, some m, some o, some a, some s =>
        (readLum m o).map fun p => { color := .theme i p, opacity := a / 1000, shade := s / 1000 }
      | _, _, _, _, _ => none
    else if t = "a:sysClr".toList then
      if as.lookup "val".toList = some "window".toList then some { color := .auto } else none
    else none
  | _ => none

/-! ### Fills and lines -/

/-- A fill. A gradient has a kind, the angle of a linear one in degrees, and colours at positions in percent. -/
inductive FillSeen2 where
  | none
  | solid (c : DrawColour)
  | pattern (name : Text) (fg bg : Option DrawColour)
  | gradient (kind : Text) (angle : Nat) (stops : List (Nat × DrawColour))
deriving DecidableEq, Repr

/-- The colour in a child; the outer `none` if it cannot be read. -/
def readColourChild (t : Text) (ks : List Node) : Option (Option DrawColour) :=
  match child t ks with
  | none => some none
  | some e => (readDrawColour e.2).map some

/-- A gradient stop, 20.1.8.36. -/
def readStop (e : NodeAttrs × List Node) : Option (Nat × DrawColour) :=
  match attrNat "pos".toList e.1, readDrawColour e.2 with
  | some p, some c => some (p / 1000, c)
  | _, _ => none

/-- The kind and angle of a gradient, 20.1.8.41 and 20.1.8.46. -/
def readGradientKind (ks : List Node) : Option (Text × Nat) :=
  match child "a:lin".toList ks with
  | some l => (attrNat "ang".toList l.1).map fun a => ("linear".toList, a / 60000)
  | none => ((child "a:path".toList ks).bind fun p => p.1.lookup "path".toList).map fun k => (k, 0)

/-- The fill among the children of a properties element, 20.1.8.33, 20.1.8.44, 20.1.8.47, 20.1.8.54. A gradient has at
least two stops. -/
def readFill2 (ks : List Node) : Option FillSeen2 :=
  match child "a:noFill".toList ks with
  | some _ => some .none
  | none =>
    match child "a:solidFill".toList ks with
    | some e => (readDrawColour e.2).map .solid
    | none =>
      match child "a:pattFill".toList ks with
      | some e =>
        match e.1.lookup "prst".toList, readColourChild "a:fgClr".toList e.2, readColourChild "a:bgClr".toList e.2 with
        | some p, some f, some b => some (.pattern p f b)
        | _, _, _ => none
      | none =>
        match child "a:gradFill".toList ks with
        | some e =>
          match (child "a:gsLst".toList e.2).bind fun g => (elems "a:gs".toList g.2).mapM readStop, readGradientKind e.2 with
          | some st, some k => if 2 ≤ st.length then some (.gradient k.1 k.2 st) else none
          | _, _ => none
        | none => none

/-- A line: its width in EMUs (12700 are a point), its fill and its dash. -/
structure OutlineSeen where
  width : Nat
  fill : FillSeen2
  dash : Text
deriving DecidableEq, Repr

/-- An `a:ln` element, 20.1.2.2.24. -/
def readOutline (ks : List Node) : Option OutlineSeen :=
  match child "a:ln".toList ks with
  | none => none
  | some e =>
    match attrNat "w".toList e.1, readFill2 e.2 with
    | some w, some f =>
      match child "a:prstDash".toList e.2 with
      | none => some ⟨w, f, "solid".toList⟩
      | some d => (d.1.lookup "val".toList).map fun v => ⟨w, f, v⟩
    | _, _ => none

/-! ### Texts -/

/-- The font of a run, 21.1.2.3.9. -/
structure RunFont where
  size : Option Nat
  bold : Bool
  italic : Bool
  underline : Bool
  strike : Bool
  colour : Option DrawColour
  face : Text
  pitch : Nat
  charset : Nat
deriving DecidableEq, Repr

/-- The properties of a run. -/
def readTextFont (e : NodeAttrs × List Node) : Option RunFont :=
  match attrNat? "sz".toList e.1, readColourChild "a:solidFill".toList e.2,
    attrNatD "pitchFamily".toList 0 (attrsOf "a:latin".toList e.2), attrNatD "charset".toList 0 (attrsOf "a:latin".toList e.2) with
  | some sz, some c, some p, some ch =>
    some { size := sz, bold := e.1.lookup "b".toList == some "1".toList, italic := e.1.lookup "i".toList == some "1".toList
           underline := e.1.lookup "u".toList == some "sng".toList
           strike := e.1.lookup "strike".toList == some "sngStrike".toList
           colour := c, face := ((attrsOf "a:latin".toList e.2).lookup "typeface".toList).getD [], pitch := p, charset := ch }
  | _, _, _, _ => none

/-- A paragraph: its alignment, its direction, its text with the font, and whether the text is that of a cell. -/
structure ParaSeen where
  align : Option Text
  rightToLeft : Bool
  text : Text
  linked : Bool
  font : RunFont
deriving DecidableEq, Repr

/-- A run with the given properties element and text. -/
def readTextRun (ks : List Node) : Option (Text × RunFont) :=
  match (child "a:rPr".toList ks).bind readTextFont, (child "a:t".toList ks).bind fun e => textOnly e.2 with
  | some f, some t => some (t, f)
  | _, _ => none

/-- An `a:p` element, 21.1.2.2.6, with one run, one field, or nothing. -/
def readPara (e : NodeAttrs × List Node) : Option ParaSeen :=
  let al := (attrsOf "a:pPr".toList e.2).lookup "algn".toList
  let rtl := (attrsOf "a:pPr".toList e.2).lookup "rtl".toList == some "1".toList
  match child "a:r".toList e.2 with
  | some r => (readTextRun r.2).map fun q => ⟨al, rtl, q.1, false, q.2⟩
  | none =>
    match child "a:fld".toList e.2 with
    | some r => (readTextRun r.2).map fun q => ⟨al, rtl, q.1, true, q.2⟩
    | none => ((child "a:endParaRPr".toList e.2).bind readTextFont).map fun f => ⟨al, rtl, [], false, f⟩

/-- A text box: the cell its text comes from, the direction and vertical alignment of its text, its paragraphs, its fill
and its line. -/
structure BoxSeen where
  textlink : Text
  direction : Text
  anchor : Text
  centered : Bool
  paragraphs : List ParaSeen
  fill : FillSeen2
  line : OutlineSeen
deriving DecidableEq, Repr

/-- An `xdr:sp` element, 20.5.2.29. -/
def readBox (e : NodeAttrs × List Node) : Option BoxSeen :=
  match child "xdr:spPr".toList e.2, child "xdr:txBody".toList e.2 with
  | some p, some b =>
    match readFill2 p.2, readOutline p.2, (elems "a:p".toList b.2).mapM readPara, child "a:bodyPr".toList b.2 with
    | some f, some l, some ps, some bp =>
      some { textlink := (e.1.lookup "textlink".toList).getD [], direction := (bp.1.lookup "vert".toList).getD "horz".toList
             anchor := (bp.1.lookup "anchor".toList).getD "t".toList
             centered := bp.1.lookup "anchorCtr".toList == some "1".toList, paragraphs := ps, fill := f, line := l }
    | _, _, _, _ => none
  | _, _ => none

/-! ### Objects -/

/-- What an anchor holds: a picture with its relationship, position and size, a chart with its relationship, or a text
box with its position and size. -/
inductive ThingSeen where
  | picture (rel : Text) (x y cx cy : Nat)
  | chart (rel : Text)
  | box (b : BoxSeen) (x y cx cy : Nat)
deriving DecidableEq, Repr

/-- The properties of an object, 20.1.2.2.8: its number, name and description, the relationship and tip of its link,
and whether it is only decoration. -/
structure ThingProps where
  id : Nat
  name : Text
  descr : Text
  link : Option (Text × Text)
  decorative : Bool
deriving DecidableEq, Repr

/-- The link of an object, 21.1.2.3.5. -/
def readHlink (ks : List Node) : Option (Option (Text × Text)) :=
  match child "a:hlinkClick".toList ks with
  | none => some none
  | some e => (e.1.lookup "r:id".toList).map fun r => some (r, (e.1.lookup "tooltip".toList).getD [])

/-- An object is only decoration if one of its extensions says so. -/
def readDecorative (ks : List Node) : Bool :=
  match child "a:extLst".toList ks with
  | none => false
  | some x => (elems "a:ext".toList x.2).any fun e =>
      match child "adec:decorative".toList e.2 with
      | some d => d.1.lookup "val".toList == some "1".toList
      | none => false

/-- The `xdr:cNvPr` element in a properties element. -/
def readProps (t : Text) (ks : List Node) : Option ThingProps :=
  match (child t ks).bind fun e => child "xdr:cNvPr".toList e.2 with
  | none => none
  | some c =>
    match attrNat "id".toList c.1, c.1.lookup "name".toList, readHlink c.2 with
    | some i, some n, some l => some ⟨i, n, (c.1.lookup "descr".toList).getD [], l, readDecorative c.2⟩
    | _, _, _ => none

/-- The position and size in an `xdr:spPr` element. -/
def readXfrm (ks : List Node) : Option (Nat × Nat × Nat × Nat) :=
  match (child "xdr:spPr".toList ks).bind fun e => child "a:xfrm".toList e.2 with
  | none => none
  | some x =>
    match attrNat "x".toList (attrsOf "a:off".toList x.2), attrNat "y".toList (attrsOf "a:off".toList x.2),
      attrNat "cx".toList (attrsOf "a:ext".toList x.2), attrNat "cy".toList (attrsOf "a:ext".toList x.2) with
    | some a, some b, some c, some d => some (a, b, c, d)
    | _, _, _, _ => none

/-- The relationship of the chart in an `xdr:graphicFrame` element. -/
def readChartRel (ks : List Node) : Option Text :=
  (((child "a:graphic".toList ks).bind fun g => child "a:graphicData".toList g.2).bind fun d =>
    child "c:chart".toList d.2).bind fun c => c.1.lookup "r:id".toList

/-- The object among the children of an anchor. -/
def readThing (ks : List Node) : Option (ThingProps × ThingSeen) :=
  match child "xdr:pic".toList ks with
  | some p =>
    match readProps "xdr:nvPicPr".toList p.2,
      ((child "xdr:blipFill".toList p.2).bind fun b => child "a:blip".toList b.2).bind fun b => b.1.lookup "r:embed".toList,
      readXfrm p.2 with
    | some n, some r, some (x, y, cx, cy) => some (n, .picture r x y cx cy)
    | _, _, _ => none
  | none =>
    match child "xdr:graphicFrame".toList ks with
    | some f =>
      match readProps "xdr:nvGraphicFramePr".toList f.2, readChartRel f.2 with
      | some n, some r => some (n, .chart r)
      | _, _ => none
    | none =>
      match child "xdr:sp".toList ks with
      | some s =>
        match readProps "xdr:nvSpPr".toList s.2, readBox s, readXfrm s.2 with
        | some n, some b, some (x, y, cx, cy) => some (n, .box b x y cx cy)
        | _, _, _ => none
      | none => none

/-- A whole number that is the text of a child. -/
def childNat (t : Text) (ks : List Node) : Option Nat := ((child t ks).bind fun e => textOnly e.2).bind readNat

/-- A corner of an anchor, 20.5.2.5, 20.5.2.17: the cell and the offsets in EMUs. -/
def readCorner (t : Text) (ks : List Node) : Option Corner :=
  match child t ks with
  | none => none
  | some e =>
    match childNat "xdr:col".toList e.2, childNat "xdr:colOff".toList e.2, childNat "xdr:row".toList e.2,
      childNat "xdr:rowOff".toList e.2 with
    | some a, some b, some c, some d => some ⟨a, b, c, d⟩
    | _, _, _, _ => none

/-- An object between two cells, 20.5.2.33: whether it moves with the cells and whether its size changes with them. -/
structure AnchorSeen where
  moves : Bool
  sizes : Bool
  fromC : Corner
  toC : Corner
  props : ThingProps
  thing : ThingSeen
deriving DecidableEq, Repr

/-- How an object follows its cells, 20.5.3.2. -/
def readEditAs (as : NodeAttrs) : Option (Bool × Bool) :=
  match as.lookup "editAs".toList with
  | none => some (true, true)
  | some s =>
    if s = "twoCell".toList then some (true, true) else if s = "oneCell".toList then some (true, false)
    else if s = "absolute".toList then some (false, false) else none

/-- An `xdr:twoCellAnchor` element. -/
def readAnchor (e : NodeAttrs × List Node) : Option AnchorSeen :=
  match readEditAs e.1, readCorner "xdr:from".toList e.2, readCorner "xdr:to".toList e.2, readThing e.2 with
  | some m, some f, some t, some (p, g) => some ⟨m.1, m.2, f, t, p, g⟩
  | _, _, _, _ => none

/-- A drawing part of a worksheet. -/
def readDrawing : Node → Option (List AnchorSeen)
  | .text _ => none
  | .elem root _ ks =>
    if root ≠ "xdr:wsDr".toList then none else (elems "xdr:twoCellAnchor".toList ks).mapM readAnchor

/-- A drawing part of a chartsheet: its one chart. -/
def readSheetDrawing : Node → Option (List (ThingProps × ThingSeen))
  | .text _ => none
  | .elem root _ ks =>
    if root ≠ "xdr:wsDr".toList then none else (elems "xdr:absoluteAnchor".toList ks).mapM fun e => readThing e.2

/-! ### What was asked for -/

/-- A colour of a shape; without a colour it is black. -/
def drawColour (c : Color) (transparency : Nat) : DrawColour :=
  { color := if c = .default then .rgb 0 else colorMeant c
    opacity := if c = .automatic then 100 else 100 - transparency }

/-- The kinds of gradients by their names in the file. -/
def gradientName : GradientType → Text
  | .linear => "linear".toList
  | .radial => "circle".toList
  | .rectangular => "rect".toList
  | .path => "shape".toList

/-- The fill asked for: none, or the first of a solid, pattern and gradient fill, or the default: the light colour. -/
def shapeFillMeant (f : ShapeFormat) : FillSeen2 :=
  if f.noFill then .none
  else match f.solid, f.pattern, f.gradient with
    | some s, _, _ => .solid (drawColour s.color s.transparency)
    | none, some p, _ =>
      .pattern p.pattern (if p.foreground = .default then none else some (drawColour p.foreground 0))
        (if p.background ≠ .default then some (drawColour p.background 0)
         else if p.foreground ≠ .default then some { color := .rgb 0xFFFFFF } else none)
    | none, none, some g =>
      .gradient (gradientName g.type) (if g.type = .linear then g.angle else 0)
        (g.stops.map fun s => (s.position, drawColour s.color 0))
    | none, none, none => .solid { color := .theme 0 0 }

/-- The width of a line: the nearest quarter of a point, in EMUs. -/
def NearestQuarter (milli emus : Nat) : Prop := ∃ q, emus = 12700 * q / 4 ∧ 250 * q ≤ milli + 125 ∧ milli + 125 < 250 * q + 250

/-- The names of the dashes, 20.1.10.48. -/
def dashName : DashType → Text
  | .solid => "solid".toList
  | .roundDot => "sysDot".toList
  | .squareDot => "sysDash".toList
  | .dash => "dash".toList
  | .dashDot => "dashDot".toList
  | .longDash => "lgDash".toList
  | .longDashDot => "lgDashDot".toList
  | .longDashDotDot => "lgDashDotDot".toList

/-- The fill of a line: none, its colour, or a grey by default. -/
def lineFillMeant (l : ShapeLine) : FillSeen2 :=
  if l.hidden then .none
  else if l.color = .default then .solid { color := .theme 0 0, shade := 50 }
  else .solid (drawColour l.color l.transparency)

/-- The line asked for. -/
def OutlineMeant (f : ShapeFormat) (o : OutlineSeen) : Prop :=
  if f.noLine then o.fill = .none
  else
    o.fill = lineFillMeant (f.line.getD {}) ∧ NearestQuarter (f.line.getD {}).width o.width ∧
      ((f.line.getD {}).hidden = false → o.dash = dashName (f.line.getD {}).dash)

/-- The font asked for. The colour of the text is left to the reader if it is automatic. -/
def runFontMeant (f : ShapeFont) : RunFont :=
  { size := if f.size = 0 then none else some f.size, bold := f.bold, italic := f.italic, underline := f.underline
    strike := f.strikethrough
    colour := if f.color = .default ∨ f.color = .automatic then none else some (drawColour f.color 0)
    face := f.name, pitch := f.pitchFamily, charset := f.characterSet }

/-- The lines of a text. -/
def textLinesFrom (acc : Text) : Text → List Text
  | [] => [acc]
  | c :: s => if c = '\n' then acc :: textLinesFrom [] s else textLinesFrom (acc ++ [c]) s

/-- The lines of a text: the texts between the line feeds. -/
def textLines (s : Text) : List Text := textLinesFrom [] s

/-- The names of the alignments, 20.1.10.59. -/
def hAlignName : HAlign → Option Text
  | .default => none
  | .left => some "l".toList
  | .center => some "ctr".toList
  | .right => some "r".toList

/-- The paragraphs asked for: one for each line. A linked text that is empty is shown as a blank. -/
def parasMeant (s : Shape) : List ParaSeen :=
  (textLines s.text).map fun l =>
    { align := hAlignName s.halign, rightToLeft := s.font.rightToLeft == some true
      text := if s.link.isSome ∧ l = [] then " ".toList else l, linked := s.link.isSome, font := runFontMeant s.font }

/-- The names of the directions, 20.1.10.83. -/
def directionName : TextDirection → Text
  | .horizontal => "horz".toList
  | .rotate270 => "vert270".toList
  | .rotate90 => "vert".toList
  | .rotate90EastAsian => "eaVert".toList
  | .stacked => "wordArtVert".toList

/-- The names of the vertical alignments, 20.1.10.60, and whether the text is in the middle of the width. -/
def vAlignName : VAlign → Text × Bool
  | .top => ("t".toList, false)
  | .middle => ("ctr".toList, false)
  | .bottom => ("b".toList, false)
  | .topCentered => ("t".toList, true)
  | .middleCentered => ("ctr".toList, true)
  | .bottomCentered => ("b".toList, true)

/-- The text box asked for. -/
structure BoxMeant (s : Shape) (b : BoxSeen) : Prop where
  textlink : b.textlink = s.link.getD []
  direction : b.direction = directionName s.direction
  align : (b.anchor, b.centered) = vAlignName s.valign
  paragraphs : b.paragraphs = parasMeant s
  fill : b.fill = shapeFillMeant s.format
  line : OutlineMeant s.format b.line

/-- How an object follows its cells. -/
def movementMeant : Movement → Bool × Bool
  | .moveAndSize | .moveAndSizeAfter => (true, true)
  | .moveButDontSize => (true, false)
  | .dontMoveOrSize => (false, false)

/-- The name of an object that has none is made from its kind and its position. -/
def kindName : DrawKind → Text
  | .image => "Picture".toList
  | .chart => "Chart".toList
  | .shape _ => "TextBox".toList

/-- The object at a position (from 1) of a drawing is the one asked for. -/
structure AnchorMeant (i : Nat) (d : DrawInfo) (a : AnchorSeen) : Prop where
  movement : (a.moves, a.sizes) = movementMeant d.movement
  fromC : a.fromC = d.fromC
  toC : a.toC = d.toC
  id : a.props.id = i + 1
  name : a.props.name = if d.name = [] then kindName d.kind ++ ' ' :: showNat i else d.name
  descr : a.props.descr = d.description
  link : a.props.link = d.link.map fun l => ("rId".toList ++ showNat l.1, l.2)
  decorative : a.props.decorative = d.decorative
  thing : match d.kind with
    | .image => a.thing = .picture ("rId".toList ++ showNat d.relId) d.colAbs d.rowAbs d.width d.height
    | .chart => a.thing = .chart ("rId".toList ++ showNat d.relId)
    | .shape s => ∃ b, a.thing = .box b d.colAbs d.rowAbs d.width d.height ∧ BoxMeant s b

/-! ### What can be written -/

/-- The colours of a format are valid and no transparency is above 100. -/
def formatOk (f : ShapeFormat) : Bool :=
  (match f.line with | some l => l.color.isValid && decide (l.transparency ≤ 100) | none => true) &&
  (match f.solid with | some s => s.color.isValid && decide (s.transparency ≤ 100) | none => true) &&
  (match f.pattern with | some p => p.foreground.isValid && p.background.isValid && attrSafe p.pattern | none => true) &&
  (match f.gradient with
    | some g => g.stops.all (fun s => s.color.isValid && decide (s.position ≤ 100)) && decide (2 ≤ g.stops.length)
    | none => true)

/-- A text box whose texts can be written and whose settings are all written: the font has neither strikethrough nor a
direction, and the text does not end in a line feed and has no carriage return. -/
def shapeOk (s : Shape) : Bool :=
  textSafe s.text && decide (s.text.getLast? ≠ some '\n') && attrSafe (s.link.getD []) && formatOk s.format &&
  s.font.color.isValid && attrSafe s.font.name && !s.font.strikethrough && decide (s.font.rightToLeft ≠ some true)

/-- An object whose texts can be written. The name of a text box is never written. -/
def infoOk (d : DrawInfo) : Bool :=
  attrSafe d.name && attrSafe d.description && (match d.link with | some l => attrSafe l.2 | none => true) &&
  (match d.kind with | .shape s => shapeOk s && decide (d.name = []) | _ => true)

end Verif.Spec
