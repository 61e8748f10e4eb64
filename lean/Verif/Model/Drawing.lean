import Verif.Model.Package
import Verif.Model.Style
/-!
The drawing part `xl/drawings/drawingN.xml`: /repo/src/drawing.rs:50-1229, with the text boxes of /repo/src/shape.rs
and the scheme colours of /repo/src/color.rs:365-464.

Simplifications. Offsets and sizes (floating point numbers rounded to whole EMUs, /repo/src/worksheet.rs:16566-16586)
are natural numbers. The font size of a shape is a whole number of hundredths of a point, the width of a line is given
in thousandths of a point. A shape is stored in the entry of its drawing: on a first save the n-th shape entry and the
n-th stored shape belong together (/repo/src/worksheet.rs:16303-16304, /repo/src/drawing.rs:112-113); for later saves
see `Model/SaveLists.lean`.
-/
namespace Verif

/-- `ObjectMovement`, /repo/src/worksheet.rs (enum), as used in /repo/src/drawing.rs:92-100. -/
inductive Movement where
  | moveAndSize
  | moveButDontSize
  | dontMoveOrSize
  | moveAndSizeAfter
deriving DecidableEq, Repr

/-- `DrawingCoordinates`, /repo/src/drawing.rs:1235-1240. -/
structure Corner where
  col : Nat
  colOff : Nat
  row : Nat
  rowOff : Nat
deriving DecidableEq, Repr

/-- `ShapeLineDashType`, /repo/src/shape.rs:2317-2357. -/
inductive DashType where
  | solid | roundDot | squareDot | dash | dashDot | longDash | longDashDot | longDashDotDot
deriving DecidableEq, Repr

/-- `Display` of `ShapeLineDashType`, /repo/src/shape.rs:2359-2372. -/
def DashType.text : DashType → Str
  | .dash => "dash".toList
  | .solid => "solid".toList
  | .dashDot => "dashDot".toList
  | .longDash => "lgDash".toList
  | .roundDot => "sysDot".toList
  | .squareDot => "sysDash".toList
  | .longDashDot => "lgDashDot".toList
  | .longDashDotDot => "lgDashDotDot".toList

/-- `ShapeLine`, /repo/src/shape.rs:1091-1097, `ShapeLine::new`, 1103-1111. The width in thousandths of a point. -/
structure ShapeLine where
  color : Color := .default
  width : Nat := 750
  transparency : Nat := 0
  dash : DashType := .solid
  hidden : Bool := false
deriving DecidableEq, Repr

/-- `ShapeSolidFill`, /repo/src/shape.rs:1431-1445. -/
structure ShapeSolidFill where
  color : Color := .default
  transparency : Nat := 0
deriving DecidableEq, Repr

/-- `ShapePatternFill`, /repo/src/shape.rs:1613-1629. Simplification: the pattern is given by the text `Display` gives
for it (/repo/src/shape.rs:2618-2671). -/
structure ShapePatternFill where
  foreground : Color := .default
  background : Color := .default
  pattern : Str := "pct5".toList
deriving DecidableEq, Repr

/-- `ShapeGradientFillType`, /repo/src/shape.rs:3193-3209. -/
inductive GradientType where
  | linear | radial | rectangular | path
deriving DecidableEq, Repr

/-- `ShapeGradientStop`, /repo/src/shape.rs:2023-2026. -/
structure GradientStop where
  color : Color
  position : Nat
deriving DecidableEq, Repr

/-- `ShapeGradientFill`, /repo/src/shape.rs:1779-1800. -/
structure ShapeGradientFill where
  type : GradientType := .linear
  stops : List GradientStop := []
  angle : Nat := 90
deriving DecidableEq, Repr

/-- `ShapeFormat`, /repo/src/shape.rs:702-729. -/
structure ShapeFormat where
  noFill : Bool := false
  noLine : Bool := false
  line : Option ShapeLine := none
  solid : Option ShapeSolidFill := none
  pattern : Option ShapePatternFill := none
  gradient : Option ShapeGradientFill := none
deriving DecidableEq, Repr

/-- `ShapeFont`, /repo/src/shape.rs:2830-2871. The size in hundredths of a point; `rotation` and `has_baseline` have no
setter. -/
structure ShapeFont where
  bold : Bool := false
  italic : Bool := false
  underline : Bool := false
  strikethrough : Bool := false
  name : Str := []
  size : Nat := 1100
  color : Color := .default
  pitchFamily : Nat := 0
  characterSet : Nat := 0
  rightToLeft : Option Bool := none
deriving DecidableEq, Repr

/-- `ShapeTextHorizontalAlignment`, /repo/src/shape.rs:2678-2699. -/
inductive HAlign where
  | default | left | center | right
deriving DecidableEq, Repr

/-- `ShapeTextVerticalAlignment`, /repo/src/shape.rs:2706-2737. -/
inductive VAlign where
  | top | middle | bottom | topCentered | middleCentered | bottomCentered
deriving DecidableEq, Repr

/-- `ShapeTextDirection`, /repo/src/shape.rs:2743-2769. -/
inductive TextDirection where
  | horizontal | rotate270 | rotate90 | rotate90EastAsian | stacked
deriving DecidableEq, Repr

/-- `Shape`, /repo/src/shape.rs:81-96, apart from what `DrawInfo` holds. `link` is the formula of the text link. -/
structure Shape where
  text : Str := []
  link : Option Str := none
  format : ShapeFormat := {}
  font : ShapeFont := {}
  halign : HAlign := .default
  valign : VAlign := .top
  direction : TextDirection := .horizontal
deriving DecidableEq, Repr

/-- `DrawingType`, /repo/src/drawing.rs:1296-1302, with the shape. `Vml` objects are not stored in a drawing. -/
inductive DrawKind where
  | image
  | chart
  | shape (s : Shape)
deriving DecidableEq, Repr

/-- `DrawingInfo`, /repo/src/drawing.rs:1278-1293. `link`: the relationship number and the tool tip of the link. The
name of a shape is its text (/repo/src/shape.rs:3237-3239), it is kept in the shape. -/
structure DrawInfo where
  fromC : Corner
  toC : Corner
  colAbs : Nat := 0
  rowAbs : Nat := 0
  width : Nat := 0
  height : Nat := 0
  name : Str := []
  description : Str := []
  decorative : Bool := false
  movement : Movement := .moveButDontSize
  relId : Nat := 0
  kind : DrawKind := .image
  link : Option (Nat × Str) := none
deriving DecidableEq, Repr

/-! ### Anchors and properties -/

/-- `write_from` and `write_to`, /repo/src/drawing.rs:125-162. -/
def cornerTree (t : Str) (c : Corner) : Tree :=
  .node t [] [.data "xdr:col".toList (showNat c.col) [], .data "xdr:colOff".toList (showNat c.colOff) [],
    .data "xdr:row".toList (showNat c.row) [], .data "xdr:rowOff".toList (showNat c.rowOff) []]

/-- The `editAs` attribute, /repo/src/drawing.rs:92-100. -/
def Movement.attrs : Movement → Attrs
  | .moveButDontSize => [("editAs".toList, "oneCell".toList)]
  | .dontMoveOrSize => [("editAs".toList, "absolute".toList)]
  | .moveAndSize | .moveAndSizeAfter => []

/-- The relationships namespace. -/
def nsR : Str := "http://schemas.openxmlformats.org/officeDocument/2006/relationships".toList

/-- `write_hyperlink`, /repo/src/drawing.rs:263-277. -/
def hlinkTree (l : Nat × Str) : Tree :=
  .empty "a:hlinkClick".toList ([("xmlns:r".toList, nsR), ("r:id".toList, relStr l.1)] ++
    if l.2 = [] then [] else [("tooltip".toList, l.2)])

/-- `write_decorative`, /repo/src/drawing.rs:229-260. -/
def decorativeTree : Tree :=
  .node "a:extLst".toList []
    [.node "a:ext".toList [("uri".toList, "{FF2B5EF4-FFF2-40B4-BE49-F238E27FC236}".toList)]
      [.empty "a16:creationId".toList
        [("xmlns:a16".toList, "http://schemas.microsoft.com/office/drawing/2014/main".toList),
         ("id".toList, "{00000000-0008-0000-0000-000002000000}".toList)]],
     .node "a:ext".toList [("uri".toList, "{C183D7F6-B498-43B3-948B-1728B52AA6E4}".toList)]
      [.empty "adec:decorative".toList
        [("xmlns:adec".toList, "http://schemas.microsoft.com/office/drawing/2017/decorative".toList),
         ("val".toList, "1".toList)]]]

/-- The name of an object, /repo/src/drawing.rs:198-202: the own name (of an image or chart), or a numbered one. -/
def DrawInfo.shownName (d : DrawInfo) (index : Nat) : Str :=
  match d.kind with
  | .shape _ => "TextBox".toList ++ ' ' :: showNat index
  | .image => if d.name = [] then "Picture".toList ++ ' ' :: showNat index else d.name
  | .chart => if d.name = [] then "Chart".toList ++ ' ' :: showNat index else d.name

/-- The attributes of `xdr:cNvPr`, /repo/src/drawing.rs:204-208. -/
def DrawInfo.nvAttrs (d : DrawInfo) (index : Nat) : Attrs :=
  [("id".toList, showNat (index + 1)), ("name".toList, d.shownName index)] ++
    if d.description = [] then [] else [("descr".toList, d.description)]

/-- `write_c_nv_pr`, /repo/src/drawing.rs:196-226. -/
def DrawInfo.nvTree (d : DrawInfo) (index : Nat) : Tree :=
  if d.decorative || d.link.isSome then
    .node "xdr:cNvPr".toList (d.nvAttrs index)
      ((match d.link with | some l => [hlinkTree l] | none => []) ++ if d.decorative then [decorativeTree] else [])
  else .empty "xdr:cNvPr".toList (d.nvAttrs index)

/-- `write_a_off` and `write_a_ext`, /repo/src/drawing.rs:355-372, 316-324. -/
def DrawInfo.xfrmTree (d : DrawInfo) : Tree :=
  .node "a:xfrm".toList []
    [.empty "a:off".toList [("x".toList, showNat d.colAbs), ("y".toList, showNat d.rowAbs)],
     .empty "a:ext".toList [("cx".toList, showNat d.width), ("cy".toList, showNat d.height)]]

/-- `write_a_prst_geom`, /repo/src/drawing.rs:375-381. -/
def prstGeomTree : Tree :=
  .node "a:prstGeom".toList [("prst".toList, "rect".toList)] [.empty "a:avLst".toList []]

/-- `write_pic`, /repo/src/drawing.rs:165-193, 280-330. -/
def DrawInfo.picTree (d : DrawInfo) (index : Nat) : Tree :=
  .node "xdr:pic".toList []
    [.node "xdr:nvPicPr".toList [] [d.nvTree index,
       .node "xdr:cNvPicPr".toList [] [.empty "a:picLocks".toList [("noChangeAspect".toList, "1".toList)]]],
     .node "xdr:blipFill".toList []
       [.empty "a:blip".toList [("xmlns:r".toList, nsR), ("r:embed".toList, relStr d.relId)],
        .node "a:stretch".toList [] [.empty "a:fillRect".toList []]],
     .node "xdr:spPr".toList [] [d.xfrmTree, prstGeomTree]]

/-- The chart namespace. -/
def nsC : Str := "http://schemas.openxmlformats.org/drawingml/2006/chart".toList

/-- `write_a_graphic`, /repo/src/drawing.rs:455-494. -/
def graphicTree (relId : Nat) : Tree :=
  .node "a:graphic".toList [] [.node "a:graphicData".toList [("uri".toList, nsC)]
    [.empty "c:chart".toList [("xmlns:c".toList, nsC), ("xmlns:r".toList, nsR), ("r:id".toList, relStr relId)]]]

/-- `write_graphic_frame`, /repo/src/drawing.rs:384-452. -/
def DrawInfo.frameTree (d : DrawInfo) (chartsheet : Bool) (index : Nat) : Tree :=
  .node "xdr:graphicFrame".toList [("macro".toList, [])]
    [.node "xdr:nvGraphicFramePr".toList [] [d.nvTree index,
       if chartsheet then
         .node "xdr:cNvGraphicFramePr".toList [] [.empty "a:graphicFrameLocks".toList [("noGrp".toList, "1".toList)]]
       else .empty "xdr:cNvGraphicFramePr".toList []],
     .node "xdr:xfrm".toList [] [.empty "a:off".toList [("x".toList, "0".toList), ("y".toList, "0".toList)],
       .empty "a:ext".toList [("cx".toList, "0".toList), ("cy".toList, "0".toList)]],
     graphicTree d.relId]

/-! ### Colours -/

/-- The scheme name, `lumMod` and `lumOff` of a theme colour, /repo/src/color.rs:365-464; the name is empty for a
colour outside the palette. -/
def chartScheme (color shade : Nat) : Str × Nat × Nat :=
  match color with
  | 0 => match shade with
    | 0 => ("bg1".toList, 0, 0)
    | 1 => ("bg1".toList, 95000, 0)
    | 2 => ("bg1".toList, 85000, 0)
    | 3 => ("bg1".toList, 75000, 0)
    | 4 => ("bg1".toList, 65000, 0)
    | 5 => ("bg1".toList, 50000, 0)
    | _ => ([], 0, 0)
  | 1 => match shade with
    | 0 => ("tx1".toList, 0, 0)
    | 1 => ("tx1".toList, 50000, 50000)
    | 2 => ("tx1".toList, 65000, 35000)
    | 3 => ("tx1".toList, 75000, 25000)
    | 4 => ("tx1".toList, 85000, 15000)
    | 5 => ("tx1".toList, 95000, 5000)
    | _ => ([], 0, 0)
  | 2 => match shade with
    | 0 => ("bg2".toList, 0, 0)
    | 1 => ("bg2".toList, 90000, 0)
    | 2 => ("bg2".toList, 75000, 0)
    | 3 => ("bg2".toList, 50000, 0)
    | 4 => ("bg2".toList, 25000, 0)
    | 5 => ("bg2".toList, 10000, 0)
    | _ => ([], 0, 0)
  | 3 => other "tx2".toList shade
  | 4 => other "accent1".toList shade
  | 5 => other "accent2".toList shade
  | 6 => other "accent3".toList shade
  | 7 => other "accent4".toList shade
  | 8 => other "accent5".toList shade
  | 9 => other "accent6".toList shade
  | _ => ([], 0, 0)
where
  /-- The shades that the other colours share. -/
  other (name : Str) : Nat → Str × Nat × Nat
    | 0 => (name, 0, 0)
    | 1 => (name, 20000, 80000)
    | 2 => (name, 40000, 60000)
    | 3 => (name, 60000, 40000)
    | 4 => (name, 75000, 0)
    | 5 => (name, 50000, 0)
    | _ => ([], 0, 0)

/-- An element with only a `val` attribute: `a:lumMod`, `a:lumOff`, `a:alpha`, `a:shade`. -/
def valTree (t : Str) (n : Nat) : Tree := .empty t [("val".toList, showNat n)]

/-- The value of `a:alpha`, /repo/src/drawing.rs:872. `100 - transparency` does not underflow: the setters refuse
larger values (/repo/src/shape.rs:1315, 1547). -/
def alphaTrees (transparency : Nat) : List Tree :=
  if transparency > 0 then [valTree "a:alpha".toList ((100 - transparency) * 1000)] else []

/-- `write_a_scheme_clr`, /repo/src/drawing.rs:829-854. -/
def schemeTree (scheme : Str) (lumMod lumOff transparency : Nat) : Tree :=
  if lumMod > 0 ∨ lumOff > 0 ∨ transparency > 0 then
    .node "a:schemeClr".toList [("val".toList, scheme)]
      ((if lumMod > 0 then [valTree "a:lumMod".toList lumMod] else []) ++
       ((if lumOff > 0 then [valTree "a:lumOff".toList lumOff] else []) ++ alphaTrees transparency))
  else .empty "a:schemeClr".toList [("val".toList, scheme)]

/-- `write_color`, /repo/src/drawing.rs:797-826. -/
def colorTrees (c : Color) (transparency : Nat) : List Tree :=
  match c with
  | .theme color shade =>
    if (chartScheme color shade).1 = [] then []
    else [schemeTree (chartScheme color shade).1 (chartScheme color shade).2.1 (chartScheme color shade).2.2 transparency]
  | .automatic => [.empty "a:sysClr".toList [("val".toList, "window".toList), ("lastClr".toList, "FFFFFF".toList)]]
  | c =>
    if transparency > 0 then [.node "a:srgbClr".toList [("val".toList, c.rgbHexValue)] (alphaTrees transparency)]
    else [.empty "a:srgbClr".toList [("val".toList, c.rgbHexValue)]]

/-- `write_a_solid_fill`, /repo/src/drawing.rs:651-658. -/
def solidTree (c : Color) (transparency : Nat) : Tree := .node "a:solidFill".toList [] (colorTrees c transparency)

/-- `write_default_solid_fill`, /repo/src/drawing.rs:642-648, 892-904. -/
def shapeDefaultFill : Tree := .node "a:solidFill".toList [] [.empty "a:schemeClr".toList [("val".toList, "lt1".toList)]]

/-- `write_line_solid_fill`, /repo/src/drawing.rs:632-639, 892-911. -/
def defaultLineTree : Tree :=
  .node "a:solidFill".toList [] [.node "a:schemeClr".toList [("val".toList, "lt1".toList)]
    [valTree "a:shade".toList 50000]]

/-! ### The format of shapes -/

/-- `write_a_patt_fill`, /repo/src/drawing.rs:661-688. -/
def patternTree (f : ShapePatternFill) : Tree :=
  .node "a:pattFill".toList [("prst".toList, f.pattern)]
    ((if f.foreground ≠ .default then [.node "a:fgClr".toList [] (colorTrees f.foreground 0)] else []) ++
     (if f.background ≠ .default then [.node "a:bgClr".toList [] (colorTrees f.background 0)]
      else if f.background = .default ∧ f.foreground ≠ .default then
        [.node "a:bgClr".toList [] (colorTrees .white 0)]
      else []))

/-- `write_gradient_stop`, /repo/src/drawing.rs:721-729. -/
def stopTree (g : GradientStop) : Tree :=
  .node "a:gs".toList [("pos".toList, showNat (1000 * g.position))] (colorTrees g.color 0)

/-- The attribute of `a:path`, /repo/src/drawing.rs:743-748. -/
def GradientType.pathAttrs : GradientType → Attrs
  | .radial => [("path".toList, "circle".toList)]
  | .rectangular => [("path".toList, "rect".toList)]
  | .path => [("path".toList, "shape".toList)]
  | .linear => []

/-- `write_a_fill_to_rect`, /repo/src/drawing.rs:762-779. -/
def GradientType.toRectAttrs : GradientType → Attrs
  | .path => [("l".toList, "50000".toList), ("t".toList, "50000".toList), ("r".toList, "50000".toList),
      ("b".toList, "50000".toList)]
  | _ => [("l".toList, "100000".toList), ("t".toList, "100000".toList)]

/-- `write_a_tile_rect`, /repo/src/drawing.rs:782-794. -/
def GradientType.tileAttrs : GradientType → Attrs
  | .rectangular | .radial => [("r".toList, "-100000".toList), ("b".toList, "-100000".toList)]
  | _ => []

/-- `write_gradient_fill_angle` and `write_gradient_path`, /repo/src/drawing.rs:709-715, 732-759. -/
def gradientEnd (f : ShapeGradientFill) : List Tree :=
  if f.type = .linear then
    [.empty "a:lin".toList [("ang".toList, showNat (60000 * f.angle)), ("scaled".toList, "0".toList)]]
  else
    [.node "a:path".toList f.type.pathAttrs [.empty "a:fillToRect".toList f.type.toRectAttrs],
     .empty "a:tileRect".toList f.type.tileAttrs]

/-- `write_gradient_fill`, /repo/src/drawing.rs:691-718. -/
def gradientTree (f : ShapeGradientFill) : Tree :=
  .node "a:gradFill".toList
    (if f.type ≠ .linear then [("flip".toList, "none".toList), ("rotWithShape".toList, "1".toList)] else [])
    (.node "a:gsLst".toList [] (f.stops.map stopTree) :: gradientEnd f)

/-- The fill of a shape, /repo/src/drawing.rs:548-562. -/
def shapeFillTree (f : ShapeFormat) : Tree :=
  if f.noFill then .empty "a:noFill".toList []
  else match f.solid with
    | some s => solidTree s.color s.transparency
    | none =>
      match f.pattern with
      | some p => patternTree p
      | none =>
        match f.gradient with
        | some g => gradientTree g
        | none => shapeDefaultFill

/-- The width of a line in EMUs, /repo/src/drawing.rs:582-585: rounded to a quarter of a point. -/
def lineEmus (milli : Nat) : Nat := 3175 * ((milli + 125) * 4 / 1000)

/-- What `write_a_ln` writes in the line, /repo/src/drawing.rs:592-614. -/
def lineKids (l : ShapeLine) : List Tree :=
  if l.color ≠ .default ∨ l.dash ≠ .solid ∨ l.hidden = true then
    if l.hidden then [.empty "a:noFill".toList []]
    else
      (if l.color = .default then defaultLineTree else solidTree l.color l.transparency) ::
      (if l.dash ≠ .solid then [.empty "a:prstDash".toList [("val".toList, l.dash.text)]] else [])
  else [defaultLineTree]

/-- `write_a_ln`, /repo/src/drawing.rs:578-617. -/
def lineTree (l : ShapeLine) : Tree :=
  .node "a:ln".toList [("w".toList, showNat (lineEmus l.width)), ("cmpd".toList, "sng".toList)] (lineKids l)

/-- The line of a shape, /repo/src/drawing.rs:564-574, 620-629. -/
def outlineTree (f : ShapeFormat) : Tree :=
  if f.noLine then
    .node "a:ln".toList [("w".toList, "9525".toList), ("cmpd".toList, "sng".toList)] [.empty "a:noFill".toList []]
  else match f.line with
    | some l => lineTree l
    | none => lineTree {}

/-- `write_style`, /repo/src/drawing.rs:914-985. -/
def shapeStyleTree : Tree :=
  .node "xdr:style".toList []
    [.node "a:lnRef".toList [("idx".toList, "0".toList)] [scrgb],
     .node "a:fillRef".toList [("idx".toList, "0".toList)] [scrgb],
     .node "a:effectRef".toList [("idx".toList, "0".toList)] [scrgb],
     .node "a:fontRef".toList [("idx".toList, "minor".toList)]
       [.empty "a:schemeClr".toList [("val".toList, "dk1".toList)]]]
where
  /-- `write_a_scrgb_clr`, /repo/src/drawing.rs:933-937. -/
  scrgb : Tree :=
    .empty "a:scrgbClr".toList [("r".toList, "0".toList), ("g".toList, "0".toList), ("b".toList, "0".toList)]

/-! ### The text of shapes -/

/-- `is_latin`, /repo/src/shape.rs:3180-3182. -/
def ShapeFont.isLatin (f : ShapeFont) : Bool := f.name ≠ [] || decide (f.pitchFamily > 0) || decide (f.characterSet > 0)

/-- The attributes of a font, /repo/src/drawing.rs:1100-1119. -/
def ShapeFont.attrs (f : ShapeFont) : Attrs :=
  [("lang".toList, "en-US".toList)] ++
  ((if f.size > 0 then [("sz".toList, showNat f.size)] else []) ++
   ((if f.bold then [("b".toList, "1".toList)] else []) ++
    ((if f.italic then [("i".toList, "1".toList)] else []) ++
     (if f.underline then [("u".toList, "sng".toList)] else []))))

/-- The attributes of `write_a_latin`, /repo/src/drawing.rs:1140-1153. -/
def ShapeFont.latinAttrs (f : ShapeFont) : Attrs :=
  (if f.name ≠ [] then [("typeface".toList, f.name)] else []) ++
  ((if f.pitchFamily > 0 then [("pitchFamily".toList, showNat f.pitchFamily)] else []) ++
   (if f.characterSet > 0 ∨ f.pitchFamily > 0 then [("charset".toList, showNat f.characterSet)] else []))

/-- `write_font_elements`, /repo/src/drawing.rs:1099-1137. -/
def ShapeFont.tree (f : ShapeFont) (t : Str) : Tree :=
  if f.isLatin || !f.color.isAutoOrDefault then
    .node t f.attrs
      ((if f.color.isAutoOrDefault then [] else [solidTree f.color 0]) ++
       (if f.isLatin then [.empty "a:latin".toList f.latinAttrs, .empty "a:cs".toList f.latinAttrs] else []))
  else .empty t f.attrs

/-- `write_text_alignment`, /repo/src/drawing.rs:1169-1182. -/
def HAlign.trees : HAlign → List Tree
  | .default => []
  | .left => [.empty "a:pPr".toList [("algn".toList, "l".toList)]]
  | .center => [.empty "a:pPr".toList [("algn".toList, "ctr".toList)]]
  | .right => [.empty "a:pPr".toList [("algn".toList, "r".toList)]]

/-- The runs of a paragraph, /repo/src/drawing.rs:1071-1093, 1159-1166. -/
def Shape.runs (s : Shape) (line : Str) : List Tree :=
  match s.link with
  | some _ =>
    if line = [] then
      [.node "a:fld".toList fldAttrs [s.font.tree "a:rPr".toList, .data "a:t".toList " ".toList []],
       s.font.tree "a:endParaRPr".toList]
    else
      [.node "a:fld".toList fldAttrs [s.font.tree "a:rPr".toList, .empty "a:pPr".toList [], .data "a:t".toList line []],
       s.font.tree "a:endParaRPr".toList]
  | none =>
    if line = [] then [s.font.tree "a:endParaRPr".toList]
    else [.node "a:r".toList [] [s.font.tree "a:rPr".toList, .data "a:t".toList line []]]
where
  /-- /repo/src/drawing.rs:1160-1163. -/
  fldAttrs : Attrs :=
    [("id".toList, "{B8ADDEFE-BF52-4FD4-8C5D-6B85EF6FF707}".toList), ("type".toList, "TxLink".toList)]

/-- `write_a_p`, /repo/src/drawing.rs:1064-1096. -/
def Shape.paragraph (s : Shape) (line : Str) : Tree := .node "a:p".toList [] (s.halign.trees ++ s.runs line)

/-- A line without the `\r` at its end (`str::lines`, Rust standard library). -/
def dropCr (l : Str) : Str := if l.getLast? = some '\r' then l.dropLast else l

/-- `str::lines` (Rust standard library): the texts between line feeds, without a `\r` before the line feed; an empty
last line is left out. `acc` is the current line. -/
def rustLinesFrom (acc : Str) : Str → List Str
  | [] => if acc = [] then [] else [acc]
  | c :: s => if c = '\n' then dropCr acc :: rustLinesFrom [] s else rustLinesFrom (acc ++ [c]) s

/-- `str::lines` (Rust standard library). -/
def rustLines (s : Str) : List Str := rustLinesFrom [] s

/-- The lines that are written, /repo/src/drawing.rs:998-1004. -/
def Shape.lines (s : Shape) : List Str := rustLines (if s.text = [] then "\n".toList else s.text)

/-- `write_a_body_pr`, /repo/src/drawing.rs:1013-1056. -/
def Shape.bodyAttrs (s : Shape) : Attrs :=
  (match s.direction with
    | .horizontal => []
    | .stacked => [("vert".toList, "wordArtVert".toList)]
    | .rotate90 => [("vert".toList, "vert".toList)]
    | .rotate270 => [("vert".toList, "vert270".toList)]
    | .rotate90EastAsian => [("vert".toList, "eaVert".toList)]) ++
  ([("wrap".toList, "square".toList), ("rtlCol".toList, "0".toList)] ++
   (match s.valign with
    | .top => [("anchor".toList, "t".toList)]
    | .middle => [("anchor".toList, "ctr".toList), ("anchorCtr".toList, "0".toList)]
    | .bottom => [("anchor".toList, "b".toList), ("anchorCtr".toList, "0".toList)]
    | .topCentered => [("anchor".toList, "t".toList), ("anchorCtr".toList, "1".toList)]
    | .middleCentered => [("anchor".toList, "ctr".toList), ("anchorCtr".toList, "1".toList)]
    | .bottomCentered => [("anchor".toList, "b".toList), ("anchorCtr".toList, "1".toList)]))

/-- `write_tx_body`, /repo/src/drawing.rs:988-1010. -/
def Shape.bodyTree (s : Shape) : Tree :=
  .node "xdr:txBody".toList []
    (.empty "a:bodyPr".toList s.bodyAttrs :: .empty "a:lstStyle".toList [] :: s.lines.map s.paragraph)

/-- `write_sp`, /repo/src/drawing.rs:497-544, 333-352. -/
def DrawInfo.spTree (d : DrawInfo) (s : Shape) (index : Nat) : Tree :=
  .node "xdr:sp".toList [("macro".toList, []), ("textlink".toList, s.link.getD [])]
    [.node "xdr:nvSpPr".toList [] [d.nvTree index, .empty "xdr:cNvSpPr".toList [("txBox".toList, "1".toList)]],
     .node "xdr:spPr".toList [] [d.xfrmTree, prstGeomTree, shapeFillTree s.format, outlineTree s.format],
     shapeStyleTree,
     s.bodyTree]

/-! ### The part -/

/-- The object of an anchor, /repo/src/drawing.rs:108-118. -/
def DrawInfo.objectTree (d : DrawInfo) (index : Nat) : Tree :=
  match d.kind with
  | .image => d.picTree index
  | .chart => d.frameTree false index
  | .shape s => d.spTree s index

/-- `write_two_cell_anchor`, /repo/src/drawing.rs:89-122. -/
def DrawInfo.anchorTree (d : DrawInfo) (index : Nat) : Tree :=
  .node "xdr:twoCellAnchor".toList d.movement.attrs
    [cornerTree "xdr:from".toList d.fromC, cornerTree "xdr:to".toList d.toC, d.objectTree index,
     .empty "xdr:clientData".toList []]

/-- `write_absolute_anchor`, /repo/src/drawing.rs:1185-1228. -/
def DrawInfo.absoluteTree (d : DrawInfo) (portrait : Bool) : Tree :=
  .node "xdr:absoluteAnchor".toList []
    [.empty "xdr:pos".toList (if portrait then [("x".toList, "0".toList), ("y".toList, "-47625".toList)]
       else [("x".toList, "0".toList), ("y".toList, "0".toList)]),
     .empty "xdr:ext".toList (if portrait then [("cx".toList, "6162675".toList), ("cy".toList, "6124575".toList)]
       else [("cx".toList, "9308969".toList), ("cy".toList, "6078325".toList)]),
     d.frameTree true 1, .empty "xdr:clientData".toList []]

/-- `write_ws_dr`, /repo/src/drawing.rs:73-86. -/
def drawingAttrs : Attrs :=
  [("xmlns:xdr".toList, "http://schemas.openxmlformats.org/drawingml/2006/spreadsheetDrawing".toList),
   ("xmlns:a".toList, "http://schemas.openxmlformats.org/drawingml/2006/main".toList)]

/-- `assemble_xml_file`, /repo/src/drawing.rs:50-70, for the drawing of a worksheet. -/
def drawingTree (ds : List DrawInfo) : Tree :=
  .node "xdr:wsDr".toList drawingAttrs (ds.mapIdx fun i d => d.anchorTree (i + 1))

/-- `assemble_xml_file`, /repo/src/drawing.rs:50-70, for the drawing of a chartsheet, which has one chart. -/
def chartsheetDrawingTree (d : DrawInfo) (portrait : Bool) : Tree :=
  .node "xdr:wsDr".toList drawingAttrs [d.absoluteTree portrait]

/-! ### The setters with a condition -/

/-- `ShapeLine::set_color`, `set_width`, `set_transparency`, /repo/src/shape.rs:1157-1164, 1210-1220, 1315-1321, and
the setters without a condition, 1264-1267, 1371-1374. -/
inductive LineCall where
  | color (c : Color)
  | width (milli : Nat)
  | transparency (n : Nat)
  | dash (d : DashType)
  | hidden (b : Bool)
deriving DecidableEq, Repr

/-- See `LineCall`. -/
def ShapeLine.exec (l : ShapeLine) : LineCall → ShapeLine
  | .color c => if c.isValid then { l with color := c } else l
  | .width w => if w ≤ 1584000 then { l with width := w } else l
  | .transparency n => if n ≤ 100 then { l with transparency := n } else l
  | .dash d => { l with dash := d }
  | .hidden b => { l with hidden := b }

/-- `set_gradient_stops`, /repo/src/shape.rs:1924-1940, 2071-2073. -/
def ShapeGradientFill.setStops (f : ShapeGradientFill) (stops : List GradientStop) : ShapeGradientFill :=
  let valid := stops.filter fun g => g.color.isValid && decide (g.position ≤ 100)
  if 2 ≤ valid.length ∧ valid.length ≤ 10 then { f with stops := valid } else f

end Verif
