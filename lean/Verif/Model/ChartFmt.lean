import Verif.Model.Chart
import Verif.Model.Drawing
/-!
The formatting of charts, /repo/src/chart.rs: fills, lines, fonts, layouts, titles and axes. `Model/Chart.lean` has the skeleton
of the chart part with the formatting elements as parameters; the functions here give those parameters.

Simplifications. Numbers (`f64`) are kept as the texts that are written for them; widths of lines are thousandths of a point, font
sizes whole hundredths of a point, both not negative. Fills are those of shapes (the code, /repo/src/chart.rs:5917-6155, is the
same text as in /repo/src/drawing.rs:632-854). The values that the setters refuse (invalid colours, transparencies above 100, rotations
outside the range) are kept out by the `ok` conditions of the theorems instead of being modelled as calls.
-/
namespace Verif

/-- An element with only a `val` attribute. -/
def valText (t v : Str) : Tree := .empty t [("val".toList, v)]

/-- An element that turns something on. -/
def valOne (t : Str) : Tree := valText t "1".toList

/-- The elements of sections. -/
def secTrees (secs : List (Str × List Tree)) : List Tree := secs.flatMap (·.2)

/-! ### Formats -/

/-- `ChartLine`, /repo/src/chart.rs:13891-13911. -/
structure CLine where
  color : Color := .default
  width : Option Nat := none
  transparency : Nat := 0
  dash : DashType := .solid
  hidden : Bool := false
deriving DecidableEq, Repr

/-- `ChartFormat`, /repo/src/chart.rs:13324-13351. -/
structure CFormat where
  noFill : Bool := false
  noLine : Bool := false
  line : Option CLine := none
  solid : Option ShapeSolidFill := none
  pattern : Option ShapePatternFill := none
  gradient : Option ShapeGradientFill := none
deriving DecidableEq, Repr

/-- `has_formatting`, /repo/src/chart.rs:13808-13815. -/
def CFormat.hasFormatting (f : CFormat) : Bool :=
  f.line.isSome || f.solid.isSome || f.pattern.isSome || f.gradient.isSome || f.noFill || f.noLine

/-- The fill in `write_sp_pr`, /repo/src/chart.rs:5844-5855. -/
def CFormat.fillTrees (f : CFormat) : List Tree :=
  if f.noFill then [.empty "a:noFill".toList []]
  else match f.solid with
    | some s => [solidTree s.color s.transparency]
    | none =>
      match f.pattern with
      | some p => [patternTree p]
      | none =>
        match f.gradient with
        | some g => [gradientTree g]
        | none => []

/-- The elements of a line, /repo/src/chart.rs:5881-5903. -/
def CLine.kids (l : CLine) : List Tree :=
  if l.hidden then [.empty "a:noFill".toList []]
  else (if l.color ≠ .default then [solidTree l.color l.transparency] else []) ++
    (if l.dash ≠ .solid then [valText "a:prstDash".toList l.dash.text] else [])

/-- The attributes of a line, /repo/src/chart.rs:5869-5879. -/
def CLine.attrs (l : CLine) : Attrs :=
  match l.width with
  | some w => [("w".toList, showNat (lineEmus w))]
  | none => []

/-- `write_a_ln`, /repo/src/chart.rs:5868-5904. -/
def CLine.tree (l : CLine) : Tree :=
  if l.color ≠ .default ∨ l.dash ≠ .solid ∨ l.hidden = true then .node "a:ln".toList l.attrs l.kids
  else .empty "a:ln".toList l.attrs

/-- The line in `write_sp_pr`, /repo/src/chart.rs:5856-5862, 5907-5914. -/
def CFormat.lineTrees (f : CFormat) : List Tree :=
  if f.noLine then [.node "a:ln".toList [] [.empty "a:noFill".toList []]]
  else match f.line with
    | some l => [l.tree]
    | none => []

/-- `write_sp_pr`, /repo/src/chart.rs:5837-5865. -/
def CFormat.trees (f : CFormat) : List Tree :=
  if f.hasFormatting then [.node "c:spPr".toList [] (f.fillTrees ++ f.lineTrees)] else []

/-! ### Fonts -/

/-- `ChartFont`, /repo/src/chart.rs:15125-15169. -/
structure CFont where
  bold : Option Bool := none
  hasDefaultBold : Bool := false
  italic : Bool := false
  underline : Bool := false
  strikethrough : Bool := false
  name : Str := []
  size : Nat := 0
  color : Color := .default
  pitchFamily : Nat := 0
  characterSet : Nat := 0
  rotation : Option Int := none
  hasBaseline : Bool := false
  rightToLeft : Option Bool := none
deriving DecidableEq, Repr

/-- `is_latin`, /repo/src/chart.rs:15622-15624. -/
def CFont.isLatin (f : CFont) : Bool := f.name ≠ [] || decide (f.pitchFamily > 0) || decide (f.characterSet > 0)

/-- `to_xml_bool`. -/
def onOff (b : Bool) : Str := if b then "1".toList else "0".toList

/-- The attributes of a font, /repo/src/chart.rs:5761-5785. -/
def CFont.attrs (f : CFont) (run : Bool) : Attrs :=
  (if run then [("lang".toList, "en-US".toList)] else []) ++
  ((if f.size > 0 then [("sz".toList, showNat f.size)] else []) ++
   ((match f.bold with | some b => [("b".toList, onOff b)] | none => []) ++
    ((if f.italic || (f.bold.isSome && !f.hasDefaultBold) then [("i".toList, onOff f.italic)] else []) ++
     ((if f.underline then [("u".toList, "sng".toList)] else []) ++
      (if f.hasBaseline then [("baseline".toList, "0".toList)] else [])))))

/-- The attributes of `write_a_latin`, /repo/src/chart.rs:5806-5822. -/
def CFont.latinAttrs (f : CFont) : Attrs :=
  (if f.name ≠ [] then [("typeface".toList, f.name)] else []) ++
  ((if f.pitchFamily > 0 then [("pitchFamily".toList, showNat f.pitchFamily)] else []) ++
   (if f.characterSet > 0 ∨ f.pitchFamily > 0 then [("charset".toList, showNat f.characterSet)] else []))

/-- `write_font_elements`, /repo/src/chart.rs:5760-5803, for `a:rPr` (`run`) or `a:defRPr`. -/
def CFont.tree (f : CFont) (run : Bool) : Tree :=
  let tag := if run then "a:rPr".toList else "a:defRPr".toList
  if f.isLatin || !f.color.isAutoOrDefault then
    .node tag (f.attrs run)
      ((if f.color.isAutoOrDefault then [] else [solidTree f.color 0]) ++
       (if f.isLatin then [.empty "a:latin".toList f.latinAttrs] else []))
  else .empty tag (f.attrs run)

/-- The rotation of a text, /repo/src/chart.rs:5709-5719: 360 stands for none. -/
def CFont.angle (f : CFont) (horizontal : Bool) : Int :=
  match f.rotation with
  | some r => r
  | none => if horizontal then -90 else 360

/-- `i32::to_string`. -/
def showInt (n : Int) : Str := if n < 0 then '-' :: showNat n.natAbs else showNat n.natAbs

/-- The attributes of `write_a_body_pr`, /repo/src/chart.rs:5721-5739. -/
def rotationAttrs (angle : Int) : Attrs :=
  if angle = 360 then []
  else if angle = 270 then [("rot".toList, "0".toList), ("vert".toList, "wordArtVert".toList)]
  else if angle = 271 then [("rot".toList, "0".toList), ("vert".toList, "eaVert".toList)]
  else [("rot".toList, showInt (angle * 60000)), ("vert".toList, "horz".toList)]

/-- `write_a_body_pr`, /repo/src/chart.rs:5706-5742. -/
def CFont.bodyTree (f : CFont) (horizontal : Bool) : Tree := .empty "a:bodyPr".toList (rotationAttrs (f.angle horizontal))

/-- The attributes of a paragraph, /repo/src/chart.rs:5693-5696, 6352-6355. -/
def CFont.rtlAttrs (f : CFont) : Attrs :=
  match f.rightToLeft with
  | some b => [("rtl".toList, onOff b)]
  | none => []

/-- `write_a_p_pr` and `write_a_p_pr_rich`, /repo/src/chart.rs:5690-5703, 6349-6362. -/
def CFont.paraTree (f : CFont) : Tree := .node "a:pPr".toList f.rtlAttrs [f.tree false]

/-- `write_tx_pr` and `write_axis_font` (not horizontal), /repo/src/chart.rs:5638-5687. -/
def CFont.txPrTree (f : CFont) (horizontal : Bool) : Tree :=
  .node "c:txPr".toList []
    [f.bodyTree horizontal, .empty "a:lstStyle".toList [],
     .node "a:p".toList [] [f.paraTree, .empty "a:endParaRPr".toList [("lang".toList, "en-US".toList)]]]

/-- The font of an axis or title is changed when it is set: /repo/src/chart.rs:9028-9038 (`ChartTitle::set_font`). -/
def CFont.forTitle (f : CFont) : CFont :=
  { f with hasDefaultBold := true, hasBaseline := f.hasBaseline || f.italic || f.isLatin }

/-- `ChartAxis::set_font`, /repo/src/chart.rs:10870-10883. -/
def CFont.forAxis (f : CFont) : CFont :=
  { f with
    hasBaseline := f.hasBaseline || f.italic || f.isLatin
    bold := if f.italic && f.bold.isNone then some false else f.bold }

/-! ### Layouts and titles -/

/-- `ChartLayout`, /repo/src/chart.rs:17899-17927; the numbers as texts. -/
structure CLayout where
  x : Option Str := none
  y : Option Str := none
  width : Option Str := none
  height : Option Str := none
  hasInner : Bool := false
  hasDimensions : Bool := false
deriving DecidableEq, Repr

/-- `is_not_default`, /repo/src/chart.rs:18001-18006. -/
def CLayout.isSet (l : CLayout) : Bool := l.x.isSome || l.y.isSome || l.width.isSome || l.height.isSome

/-- An optional value element. -/
def optVal (t : Str) (o : Option Str) : List Tree := (o.map (valText t)).toList

/-- The sections of `write_manual_layout`, /repo/src/chart.rs:3691-3724. -/
def CLayout.secs (l : CLayout) : List (Str × List Tree) :=
  [("c:layoutTarget".toList, if l.hasInner then [valText "c:layoutTarget".toList "inner".toList] else []),
   ("c:xMode".toList, [valText "c:xMode".toList "edge".toList]),
   ("c:yMode".toList, [valText "c:yMode".toList "edge".toList]),
   ("c:x".toList, optVal "c:x".toList l.x),
   ("c:y".toList, optVal "c:y".toList l.y),
   ("c:w".toList, if l.hasDimensions then optVal "c:w".toList l.width else []),
   ("c:h".toList, if l.hasDimensions then optVal "c:h".toList l.height else [])]

/-- `write_layout`, /repo/src/chart.rs:3677-3688. -/
def CLayout.tree (l : CLayout) : Tree :=
  if l.isSet then .node "c:layout".toList [] [.node "c:manualLayout".toList [] (secTrees l.secs)]
  else .empty "c:layout".toList []

/-- `ChartTitle`, /repo/src/chart.rs:8767-8793. -/
structure CTitle where
  name : Str := []
  ref : ChartRef := {}
  format : CFormat := {}
  font : CFont := {}
  hidden : Bool := false
  horizontal : Bool := false
  ignorePara : Bool := false
  layout : CLayout := {}
  overlay : Bool := false
deriving DecidableEq, Repr

/-- `write_overlay`, /repo/src/chart.rs:4928-4930. -/
def overlayTrees (b : Bool) : List Tree := if b then [valOne "c:overlay".toList] else []

/-- The elements of `c:rich`, /repo/src/chart.rs:6318-6375. -/
def CTitle.richTrees (t : CTitle) : List Tree :=
  [t.font.bodyTree t.horizontal, .empty "a:lstStyle".toList [],
   .node "a:p".toList []
     ((if t.ignorePara then [] else [t.font.paraTree]) ++
      [.node "a:r".toList [] [t.font.tree true, .data "a:t".toList t.name []]])]

/-- The elements of a title after its text, /repo/src/chart.rs:6228-6242, 6264-6275 and 6284-6293. -/
def CTitle.restSecs (t : CTitle) : List (Str × List Tree) :=
  [("c:layout".toList, [t.layout.tree]), ("c:overlay".toList, overlayTrees t.overlay), ("c:spPr".toList, t.format.trees),
   ("c:txPr".toList, if t.name = [] ∧ t.ref.range.hasData = true ∧ t.format.hasFormatting = false then
      [t.font.txPrTree t.horizontal] else [])]

/-- The title as a parameter of the skeleton, `write_chart_title`, /repo/src/chart.rs:3492-3500. -/
def CTitle.toTitle (t : CTitle) : ChartTitle where
  name := t.name
  ref := t.ref
  rich := t.richTrees
  rest := secTrees t.restSecs
  only := if t.format.hasFormatting then some (secTrees t.restSecs) else none

/-! ### Axes -/

/-- `ChartAxisType`, /repo/src/chart.rs:12360-12364. -/
inductive AxisType where
  | category | value | date
deriving DecidableEq, Repr

/-- `ChartAxisPosition`, /repo/src/chart.rs:12367-12372. -/
inductive AxisSide where
  | top | bottom | left | right
deriving DecidableEq, Repr

/-- `ChartAxisPosition::reverse`, /repo/src/chart.rs:12375-12382. -/
def AxisSide.reverse : AxisSide → AxisSide
  | .top => .bottom
  | .left => .right
  | .right => .left
  | .bottom => .top

/-- Its `Display`, /repo/src/chart.rs:12385-12394. -/
def AxisSide.text : AxisSide → Str
  | .top => "t".toList
  | .left => "l".toList
  | .right => "r".toList
  | .bottom => "b".toList

/-- `ChartAxisLabelPosition`, /repo/src/chart.rs:12452-12466. -/
inductive LabelPlace where
  | nextTo | high | low | none
deriving DecidableEq, Repr

/-- Its `Display`, /repo/src/chart.rs:12468-12477. -/
def LabelPlace.text : LabelPlace → Str
  | .low => "low".toList
  | .high => "high".toList
  | .none => "none".toList
  | .nextTo => "nextTo".toList

/-- `ChartAxisTickType`, /repo/src/chart.rs:12545-12557. -/
inductive TickType where
  | none | inside | outside | cross
deriving DecidableEq, Repr

/-- Its `Display`, /repo/src/chart.rs:12559-12568. -/
def TickType.text : TickType → Str
  | .none => "none".toList
  | .cross => "cross".toList
  | .inside => "in".toList
  | .outside => "out".toList

/-- `ChartAxisDateUnitType`, /repo/src/chart.rs:12575-12584. -/
inductive DateUnit where
  | days | months | years
deriving DecidableEq, Repr

/-- Its `Display`, /repo/src/chart.rs:12586-12594. -/
def DateUnit.text : DateUnit → Str
  | .days => "days".toList
  | .years => "years".toList
  | .months => "months".toList

/-- `ChartAxisDisplayUnitType`, /repo/src/chart.rs:12622-12652. -/
inductive DisplayUnit where
  | none | hundreds | thousands | tenThousands | hundredThousands | millions | tenMillions | hundredMillions | billions | trillions
deriving DecidableEq, Repr

/-- Its `Display`, /repo/src/chart.rs:12654-12669. -/
def DisplayUnit.text : DisplayUnit → Str
  | .none => "none".toList
  | .hundreds => "hundreds".toList
  | .thousands => "thousands".toList
  | .tenThousands => "tenThousands".toList
  | .hundredThousands => "hundredThousands".toList
  | .millions => "millions".toList
  | .tenMillions => "tenMillions".toList
  | .hundredMillions => "hundredMillions".toList
  | .billions => "billions".toList
  | .trillions => "trillions".toList

/-- `ChartAxisCrossing`, /repo/src/chart.rs:17284-17317; a value as its text. -/
inductive Crossing where
  | automatic | min | max
  | category (n : Nat)
  | value (v : Str)
deriving DecidableEq, Repr

/-- Its `Display`, /repo/src/chart.rs:17319-17329. -/
def Crossing.text : Crossing → Str
  | .min => "min".toList
  | .max => "max".toList
  | .automatic => "autoZero".toList
  | .value v => v
  | .category n => showNat n

/-- `ChartAxisLabelAlignment`, /repo/src/chart.rs:17339-17348. -/
inductive LabelAlign where
  | center | left | right
deriving DecidableEq, Repr

/-- Its `Display`, /repo/src/chart.rs:17350-17358. -/
def LabelAlign.text : LabelAlign → Str
  | .left => "l".toList
  | .right => "r".toList
  | .center => "ctr".toList

/-- `ChartAxis`, /repo/src/chart.rs:10545-10614. The empty texts of `num_format`, `max`, `min` and the units stand for nothing set. -/
structure AxisOpts where
  axisType : AxisType := .value
  side : AxisSide := .bottom
  labelPlace : LabelPlace := .nextTo
  title : CTitle := {}
  format : CFormat := {}
  font : Option CFont := none
  numFormat : Str := []
  linked : Bool := false
  reverse : Bool := false
  hidden : Bool := false
  automatic : Bool := false
  between : Bool := true
  max : Str := []
  min : Str := []
  majorUnit : Str := []
  minorUnit : Str := []
  majorGrid : Bool := false
  minorGrid : Bool := false
  majorGridLine : Option CLine := none
  minorGridLine : Option CLine := none
  logBase : Nat := 0
  labelInterval : Nat := 0
  tickInterval : Nat := 0
  majorTick : Option TickType := none
  minorTick : Option TickType := none
  majorDateUnit : Option DateUnit := none
  minorDateUnit : Option DateUnit := none
  displayUnit : DisplayUnit := .none
  displayUnitShown : Bool := false
  crossing : Crossing := .automatic
  labelAlign : LabelAlign := .center
deriving DecidableEq, Repr

/-- The public methods of `ChartAxis` that change it, /repo/src/chart.rs:10676-12356. Numbers are given as texts; `majorUnit` and
`minorUnit` with the sign of the number. `name` is `set_name` with a text or with a range. -/
inductive AxisCall where
  | name (text : Str) (range : ChartRange)
  | nameFont (f : CFont)
  | format (f : CFormat)
  | font (f : CFont)
  | numFormat (s : Str)
  | dateAxis (b : Bool)
  | textAxis (b : Bool)
  | automaticAxis (b : Bool)
  | crossing (c : Crossing)
  | reverse
  | max (v : Str)
  | min (v : Str)
  | majorUnit (negative : Bool) (v : Str)
  | minorUnit (negative : Bool) (v : Str)
  | displayUnit (u : DisplayUnit)
  | displayUnitShown (b : Bool)
  | majorDateUnit (u : DateUnit)
  | minorDateUnit (u : DateUnit)
  | labelAlign (a : LabelAlign)
  | majorGrid (b : Bool)
  | minorGrid (b : Bool)
  | majorGridLine (l : CLine)
  | minorGridLine (l : CLine)
  | labelPlace (p : LabelPlace)
  | between (b : Bool)
  | labelInterval (n : Nat)
  | tickInterval (n : Nat)
  | majorTick (t : TickType)
  | minorTick (t : TickType)
  | logBase (n : Nat)
  | hidden (b : Bool)
  | labelLayout (l : CLayout)
deriving DecidableEq, Repr

/-- `ChartTitle::set_name`, /repo/src/chart.rs:8855-8868: the text of a range is not taken as the name, and an older name stays. -/
def CTitle.setName (t : CTitle) (text : Str) (range : ChartRange) : CTitle :=
  { t with ref := { range := range, cache := {} }, name := if range.hasData then t.name else text }

/-- The setters, /repo/src/chart.rs:10676-12356 (`set_max_date` and `set_min_date`, 11381-11399, store texts like `set_max`). -/
def AxisOpts.exec (a : AxisOpts) : AxisCall → AxisOpts
  | .name text range => { a with title := a.title.setName text range }
  | .nameFont f => { a with title := { a.title with font := f.forTitle } }
  | .format f => { a with format := f }
  | .font f => { a with font := some f.forAxis }
  | .numFormat s => { a with numFormat := s }
  | .dateAxis b => { a with axisType := if b then .date else .category, automatic := !b }
  | .textAxis b => { a with automatic := b }
  | .automaticAxis b => { a with automatic := b }
  | .crossing c => { a with crossing := c }
  | .reverse => { a with reverse := true }
  | .max v => { a with max := v }
  | .min v => { a with min := v }
  | .majorUnit neg v => if neg then a else { a with majorUnit := v }
  | .minorUnit neg v => if neg then a else { a with minorUnit := v }
  | .displayUnit u => { a with displayUnit := u, displayUnitShown := true }
  | .displayUnitShown b => { a with displayUnitShown := b }
  | .majorDateUnit u => { a with majorDateUnit := some u }
  | .minorDateUnit u => { a with minorDateUnit := some u }
  | .labelAlign x => { a with labelAlign := x }
  | .majorGrid b => { a with majorGrid := b }
  | .minorGrid b => { a with minorGrid := b }
  | .majorGridLine l => { a with majorGridLine := some l, majorGrid := true }
  | .minorGridLine l => { a with minorGridLine := some l, minorGrid := true }
  | .labelPlace p => { a with labelPlace := p }
  | .between b => { a with between := b }
  | .labelInterval n => { a with labelInterval := n }
  | .tickInterval n => { a with tickInterval := n }
  | .majorTick t => { a with majorTick := some t }
  | .minorTick t => { a with minorTick := some t }
  | .logBase n => if n ≥ 2 then { a with logBase := n } else a
  | .hidden b => { a with hidden := b }
  | .labelLayout l => { a with title := { a.title with layout := l } }

/-- A sequence of calls. -/
def AxisOpts.run (a : AxisOpts) (calls : List AxisCall) : AxisOpts := calls.foldl AxisOpts.exec a

/-- What the chart says about its axes: `has_crosses`, `default_num_format` and `category_has_num_format`
(/repo/src/chart.rs:827, 847, 863, 3841-3842). -/
structure AxisCtx where
  hasCrosses : Bool := true
  numFormat : Str := "General".toList
  catNumFormat : Bool := false
deriving DecidableEq, Repr

/-- The sections of `write_scaling`, /repo/src/chart.rs:4593-4647. -/
def AxisOpts.scalingSecs (a : AxisOpts) : List (Str × List Tree) :=
  [("c:logBase".toList, if a.axisType ≠ .category ∧ a.logBase ≥ 2 then [valText "c:logBase".toList (showNat a.logBase)] else []),
   ("c:orientation".toList, [valText "c:orientation".toList (if a.reverse then "maxMin".toList else "minMax".toList)]),
   ("c:max".toList, if a.axisType ≠ .category ∧ a.max ≠ [] then [valText "c:max".toList a.max] else []),
   ("c:min".toList, if a.axisType ≠ .category ∧ a.min ≠ [] then [valText "c:min".toList a.min] else [])]

/-- `write_major_gridlines` and `write_minor_gridlines`, /repo/src/chart.rs:4678-4711. -/
def gridTrees (t : Str) (on : Bool) (line : Option CLine) : List Tree :=
  if on then
    match line with
    | some l => [.node t [] [.node "c:spPr".toList [] [l.tree]]]
    | none => [.empty t []]
  else []

/-- `write_ax_pos`, /repo/src/chart.rs:4650-4665. -/
def axPosTree (side : AxisSide) (reverse : Bool) (c : Crossing) : Tree :=
  valText "c:axPos".toList (if reverse = true ∨ c = .max then side.reverse else side).text

/-- `write_number_format`, /repo/src/chart.rs:4668-4675. -/
def codeTree (s : Str) (linked : Bool) : Tree :=
  .empty "c:numFmt".toList [("formatCode".toList, s), ("sourceLinked".toList, onOff linked)]

/-- The elements before the title, /repo/src/chart.rs:4206-4217 and in the other three functions. -/
def AxisOpts.preSecs (a other : AxisOpts) : List (Str × List Tree) :=
  [("c:scaling".toList, [.node "c:scaling".toList [] (secTrees a.scalingSecs)]),
   ("c:delete".toList, if a.hidden then [valOne "c:delete".toList] else []),
   ("c:axPos".toList, [axPosTree a.side other.reverse other.crossing]),
   ("c:majorGridlines".toList, gridTrees "c:majorGridlines".toList a.majorGrid a.majorGridLine),
   ("c:minorGridlines".toList, gridTrees "c:minorGridlines".toList a.minorGrid a.minorGridLine)]

/-- The elements between the title and `c:crossAx`, /repo/src/chart.rs:4222-4250 and in the other three functions. -/
def AxisOpts.midSecs (a : AxisOpts) (numFmt : List Tree) : List (Str × List Tree) :=
  [("c:numFmt".toList, numFmt),
   ("c:majorTickMark".toList, optVal "c:majorTickMark".toList (a.majorTick.map TickType.text)),
   ("c:minorTickMark".toList, optVal "c:minorTickMark".toList (a.minorTick.map TickType.text)),
   ("c:tickLblPos".toList, [valText "c:tickLblPos".toList a.labelPlace.text]),
   ("c:spPr".toList, a.format.trees),
   ("c:txPr".toList, (a.font.map (·.txPrTree false)).toList)]

/-- The number format of a category or date axis, /repo/src/chart.rs:4223-4227, 4322-4326. -/
def AxisOpts.catNumFmt (a : AxisOpts) (ctx : AxisCtx) (default : Str) : List Tree :=
  if a.numFormat ≠ [] then [codeTree a.numFormat a.linked]
  else if ctx.catNumFormat then [codeTree default true] else []

/-- The number format of a value axis, /repo/src/chart.rs:4438-4442, 4529-4533. -/
def AxisOpts.valNumFmt (a : AxisOpts) (ctx : AxisCtx) : List Tree :=
  [if a.numFormat = [] then codeTree ctx.numFormat true else codeTree a.numFormat a.linked]

/-- The crossing of a category or date axis, /repo/src/chart.rs:4256-4269, 4355-4368. -/
def AxisOpts.catCrosses (a other : AxisOpts) (ctx : AxisCtx) : List (Str × List Tree) :=
  let on := ctx.hasCrosses || !a.hidden
  [("c:crosses".toList, if on then
      match other.crossing with
      | .value _ => []
      | .category _ => [valText "c:crosses".toList Crossing.automatic.text]
      | c => [valText "c:crosses".toList c.text]
    else []),
   ("c:crossesAt".toList, if on then
      match other.crossing with
      | .value v => [valText "c:crossesAt".toList v]
      | _ => []
    else [])]

/-- The crossing of a value axis, /repo/src/chart.rs:4471-4478, 4562-4569. -/
def valCrosses (other : AxisOpts) : List (Str × List Tree) :=
  [("c:crosses".toList, match other.crossing with
      | .value _ | .category _ => []
      | c => [valText "c:crosses".toList c.text]),
   ("c:crossesAt".toList, match other.crossing with
      | .value v => [valText "c:crossesAt".toList v]
      | .category n => [valText "c:crossesAt".toList (showNat n)]
      | _ => [])]

/-- `write_tick_lbl_skip` and `write_tick_mark_skip`, /repo/src/chart.rs:4283-4290, 4379-4386. -/
def AxisOpts.skipSecs (a : AxisOpts) : List (Str × List Tree) :=
  [("c:tickLblSkip".toList, if a.labelInterval > 1 then [valText "c:tickLblSkip".toList (showNat a.labelInterval)] else []),
   ("c:tickMarkSkip".toList, if a.tickInterval > 1 then [valText "c:tickMarkSkip".toList (showNat a.tickInterval)] else [])]

/-- The elements of `write_cat_ax` after `c:crossAx`, /repo/src/chart.rs:4255-4290. -/
def AxisOpts.catPost (a other : AxisOpts) (ctx : AxisCtx) : List (Str × List Tree) :=
  a.catCrosses other ctx ++
  [("c:auto".toList, if a.automatic then [] else [valOne "c:auto".toList]),
   ("c:lblAlgn".toList, [valText "c:lblAlgn".toList a.labelAlign.text]),
   ("c:lblOffset".toList, [valText "c:lblOffset".toList "100".toList])] ++ a.skipSecs

/-- An element for a text that is not empty. -/
def textVal (t s : Str) : List Tree := if s ≠ [] then [valText t s] else []

/-- The elements of `write_date_ax` after `c:crossAx`, /repo/src/chart.rs:4354-4406. -/
def AxisOpts.datePost (a other : AxisOpts) (ctx : AxisCtx) : List (Str × List Tree) :=
  a.catCrosses other ctx ++
  [("c:auto".toList, if a.automatic then [valOne "c:auto".toList] else []),
   ("c:lblOffset".toList, [valText "c:lblOffset".toList "100".toList])] ++ a.skipSecs ++
  [("c:majorUnit".toList, textVal "c:majorUnit".toList a.majorUnit),
   ("c:majorTimeUnit".toList, optVal "c:majorTimeUnit".toList (a.majorDateUnit.map DateUnit.text)),
   ("c:minorUnit".toList, textVal "c:minorUnit".toList a.minorUnit),
   ("c:minorTimeUnit".toList, optVal "c:minorTimeUnit".toList (a.minorDateUnit.map DateUnit.text))]

/-- `write_disp_units`, /repo/src/chart.rs:4816-4846. -/
def AxisOpts.unitsTree (a : AxisOpts) : Tree :=
  .node "c:dispUnits".toList []
    (valText "c:builtInUnit".toList a.displayUnit.text ::
      if a.displayUnitShown then [.node "c:dispUnitsLbl".toList [] [CLayout.tree {}]] else [])

/-- The elements of `write_val_ax` and `write_cat_val_ax` after `c:crossAx`, /repo/src/chart.rs:4470-4496, 4561-4587. -/
def AxisOpts.valPost (a other : AxisOpts) : List (Str × List Tree) :=
  valCrosses other ++
  [("c:crossBetween".toList, [valText "c:crossBetween".toList (if other.between then "between".toList else "midCat".toList)]),
   ("c:majorUnit".toList, if a.axisType ≠ .category then textVal "c:majorUnit".toList a.majorUnit else []),
   ("c:minorUnit".toList, if a.axisType ≠ .category then textVal "c:minorUnit".toList a.minorUnit else []),
   ("c:dispUnits".toList, if a.displayUnit ≠ .none then [a.unitsTree] else [])]

/-- The four axis functions, /repo/src/chart.rs:4201, 4300, 4416 and 4506 (`write_val_ax` and `write_cat_val_ax` write the same for an
axis and the axis that crosses it). -/
inductive AxisForm where
  | cat | date | val
deriving DecidableEq, Repr

/-- The number format in the three forms. -/
def AxisOpts.numFmtOf (a : AxisOpts) (ctx : AxisCtx) : AxisForm → List Tree
  | .cat => a.catNumFmt ctx "General".toList
  | .date => a.catNumFmt ctx "dd/mm/yyyy".toList
  | .val => a.valNumFmt ctx

/-- The elements after `c:crossAx` in the three forms. -/
def AxisOpts.postOf (a other : AxisOpts) (ctx : AxisCtx) : AxisForm → List (Str × List Tree)
  | .cat => a.catPost other ctx
  | .date => a.datePost other ctx
  | .val => a.valPost other

/-- An axis with the axis that crosses it as parameters of the skeleton. -/
def AxisOpts.toAxis (a other : AxisOpts) (ctx : AxisCtx) (form : AxisForm) : ChartAxis where
  title := a.title.toTitle
  isDate := a.axisType = .date
  pre := secTrees (a.preSecs other)
  mid := secTrees (a.midSecs (a.numFmtOf ctx form))
  post := secTrees (a.postOf other ctx form)

/-- The axes of a chart: primary x and y, secondary x and y. -/
structure AxesOpts where
  x : AxisOpts
  y : AxisOpts
  x2 : AxisOpts
  y2 : AxisOpts
deriving DecidableEq, Repr

/-- The axes of a new chart, /repo/src/chart.rs:2894-3132. -/
def newAxes : ChartGroup → AxesOpts
  | .area =>
    { x := { axisType := .category, side := .bottom, between := false }
      y := { axisType := .value, side := .left, title := { horizontal := true }, majorGrid := true }
      x2 := { axisType := .category, between := false, crossing := .max, hidden := true, labelPlace := .none }
      y2 := { axisType := .value, side := .left } }
  | .bar =>
    { x := { axisType := .value, side := .bottom, majorGrid := true }
      y := { axisType := .category, side := .left, title := { horizontal := true } }
      x2 := { axisType := .category, side := .bottom }
      y2 := { axisType := .value, side := .left, crossing := .max, hidden := true, labelPlace := .none } }
  | .column =>
    { x := { axisType := .category, side := .bottom }
      y := { axisType := .value, side := .left, majorGrid := true }
      x2 := { axisType := .category, crossing := .max, hidden := true, labelPlace := .none }
      y2 := { axisType := .value, side := .left } }
  | .line =>
    { x := { axisType := .category, side := .bottom }
      y := { axisType := .value, side := .left, title := { horizontal := true }, majorGrid := true }
      x2 := { axisType := .category, crossing := .max, hidden := true, labelPlace := .none }
      y2 := { axisType := .value, side := .left } }
  | .radar =>
    { x := { axisType := .category, side := .bottom, majorGrid := true }
      y := { axisType := .value, side := .left, majorGrid := true, majorTick := some .cross }
      x2 := {}
      y2 := {} }
  | .scatter =>
    { x := { axisType := .value, side := .bottom, between := false }
      y := { axisType := .value, side := .left, between := false, title := { horizontal := true }, majorGrid := true }
      x2 := { axisType := .value, between := false, crossing := .max, hidden := true, labelPlace := .none }
      y2 := { axisType := .value, side := .left, between := false } }
  | .stock =>
    { x := { axisType := .date, side := .bottom, automatic := true }
      y := { axisType := .value, side := .left, title := { horizontal := true }, majorGrid := true }
      x2 := { axisType := .date, crossing := .max, hidden := true, labelPlace := .none, automatic := true }
      y2 := { axisType := .value, side := .left } }
  | .pie => { x := {}, y := {}, x2 := {}, y2 := {} }
  | .doughnut => { x := {}, y := {}, x2 := {}, y2 := {} }

/-- `has_crosses` of a new chart, /repo/src/chart.rs:981, 2895, 2934, 3108. -/
def ChartGroup.hasCrosses (g : ChartGroup) : Bool := !(g = .area || g = .bar || g = .stock)

/-- The calls on one axis of a chart. -/
inductive AxisName where
  | x | y | x2 | y2
deriving DecidableEq, Repr

/-- `Chart::x_axis`, `y_axis`, `x2_axis` and `y2_axis` (/repo/src/chart.rs) followed by a call. -/
def AxesOpts.exec (a : AxesOpts) (c : AxisName × AxisCall) : AxesOpts :=
  match c.1 with
  | .x => { a with x := a.x.exec c.2 }
  | .y => { a with y := a.y.exec c.2 }
  | .x2 => { a with x2 := a.x2.exec c.2 }
  | .y2 => { a with y2 := a.y2.exec c.2 }

/-- The primary category axis is a date axis, /repo/src/chart.rs:3552 and 3600: the type of the x axis decides, also for the
secondary axes and for bar charts, where the categories are on the y axis. -/
def AxesOpts.catForm (a : AxesOpts) (g : ChartGroup) : AxisForm :=
  if g = .scatter then .val else if a.x.axisType = .date then .date else .cat

/-- The four axes as parameters of the skeleton; `g2` is the group that decides the secondary axes (that of the combined chart, if
there is one), /repo/src/chart.rs:3533-3609. -/
def AxesOpts.into (a : AxesOpts) (g g2 : ChartGroup) (ctx : AxisCtx) (c : ChartBody) : ChartBody :=
  { c with
    group := g
    xAxis := a.x.toAxis a.y ctx (if g = .bar then .val else a.catForm g)
    yAxis := a.y.toAxis a.x ctx (if g = .bar then a.catForm g else .val)
    x2Axis := a.x2.toAxis a.y2 ctx (if g2 = .bar then .val else a.catForm g2)
    y2Axis := a.y2.toAxis a.x2 ctx (if g2 = .bar then a.catForm g2 else .val) }

/-- A chart with the axes of a new chart of its type and calls on them. -/
def Chart.withAxes (c : Chart) (calls : List (AxisName × AxisCall)) (ctx : AxisCtx) : Chart :=
  { c with
    body := (calls.foldl AxesOpts.exec (newAxes c.body.group)).into c.body.group ((c.combined.map (·.group)).getD c.body.group) ctx c.body }

end Verif
