import Verif.Model.ChartFmt
import Verif.Spec.Drawing
import Verif.Spec.DataValid
/-!
How a reader sees the formatting in a chart part (ECMA-376 part 1, 20.1 and 21.2), and what was asked for (C73, C74).
-/
namespace Verif.Spec
open Verif

/-- The `val` attribute of a child. -/
def cVal (t : Text) (ks : List Node) : Option Text := (child t ks).bind fun e => e.1.lookup "val".toList

/-- A child that turns something on. -/
def cOn (t : Text) (ks : List Node) : Bool := cVal t ks == some "1".toList

/-- Read a child, if it is there; the outer `none` if it is there and cannot be read. -/
def optChild {α : Type} (read : NodeAttrs × List Node → Option α) (t : Text) (ks : List Node) : Option (Option α) :=
  match child t ks with
  | none => some none
  | some e => (read e).map some

/-! ### Formats -/

/-- A line of a chart: the width in EMUs (12700 are a point), the fill, the dash. What is not there is automatic. -/
structure LineLook where
  width : Option Nat
  fill : Option FillSeen2
  dash : Text
deriving DecidableEq, Repr

/-- The fill among the children of a properties element, if there is one. -/
def readMaybeFill (ks : List Node) : Option (Option FillSeen2) :=
  if (child "a:noFill".toList ks).isSome ∨ (child "a:solidFill".toList ks).isSome ∨ (child "a:pattFill".toList ks).isSome ∨
    (child "a:gradFill".toList ks).isSome then (readFill2 ks).map some
  else some none

/-- An `a:ln` element, 20.1.2.2.24. -/
def readLineLook (e : NodeAttrs × List Node) : Option LineLook :=
  match attrNat? "w".toList e.1, readMaybeFill e.2 with
  | some w, some f => some ⟨w, f, (cVal "a:prstDash".toList e.2).getD "solid".toList⟩
  | _, _ => none

/-- The format of a part of a chart. -/
structure FormatLook where
  fill : Option FillSeen2 := none
  line : Option LineLook := none
deriving DecidableEq, Repr

/-- A `c:spPr` element, 21.2.2.197. -/
def readFormat (e : NodeAttrs × List Node) : Option FormatLook :=
  match readMaybeFill e.2, optChild readLineLook "a:ln".toList e.2 with
  | some f, some l => some ⟨f, l⟩
  | _, _ => none

/-- The format among children: automatic if there is none. -/
def readFormatIn (ks : List Node) : Option FormatLook := (optChild readFormat "c:spPr".toList ks).map (·.getD {})

/-! ### Fonts -/

/-- The direction of a text: an angle in 60000ths of a degree, or letters below each other. -/
inductive TextTurn where
  | angle (n : Int)
  | stacked
  | eastAsian
deriving DecidableEq, Repr

/-- An `a:bodyPr` element, 21.1.2.1.1. -/
def readTurn (as : NodeAttrs) : Option (Option TextTurn) :=
  match as.lookup "rot".toList with
  | none => some none
  | some r =>
    match (as.lookup "vert".toList).getD "horz".toList with
    | v => if v = "wordArtVert".toList then some (some .stacked)
           else if v = "eaVert".toList then some (some .eastAsian)
           else if v = "horz".toList then (readInt r).map fun n => some (.angle n)
           else none

/-- A font: what is `none` is automatic. -/
structure FontLook where
  size : Option Nat
  bold : Option Bool
  italic : Bool
  underline : Bool
  strike : Bool
  colour : Option DrawColour
  face : Text
  pitch : Nat
  charset : Nat
deriving DecidableEq, Repr

/-- The properties of a run, 21.1.2.3.2 and 21.1.2.3.9. -/
def readFontLook (e : NodeAttrs × List Node) : Option FontLook :=
  match attrNat? "sz".toList e.1, readColourChild "a:solidFill".toList e.2,
    attrNatD "pitchFamily".toList 0 (attrsOf "a:latin".toList e.2), attrNatD "charset".toList 0 (attrsOf "a:latin".toList e.2) with
  | some sz, some c, some p, some ch =>
    some { size := sz, bold := (e.1.lookup "b".toList).map (· == "1".toList), italic := e.1.lookup "i".toList == some "1".toList
           underline := e.1.lookup "u".toList == some "sng".toList
           strike := e.1.lookup "strike".toList == some "sngStrike".toList
           colour := c, face := ((attrsOf "a:latin".toList e.2).lookup "typeface".toList).getD [], pitch := p, charset := ch }
  | _, _, _, _ => none

/-- The text properties of a part of a chart: direction, font, right to left. -/
structure TextLook where
  turn : Option TextTurn
  font : FontLook
  rightToLeft : Option Bool
deriving DecidableEq, Repr

/-- A paragraph properties element with its font. -/
def readParaLook (turn : Option TextTurn) (e : NodeAttrs × List Node) : Option TextLook :=
  ((child "a:defRPr".toList e.2).bind readFontLook).map fun f =>
    ⟨turn, f, (e.1.lookup "rtl".toList).map (· == "1".toList)⟩

/-- A `c:txPr` element, 21.2.2.216. -/
def readTextLook (e : NodeAttrs × List Node) : Option TextLook :=
  match readTurn (attrsOf "a:bodyPr".toList e.2), child "a:p".toList e.2 with
  | some t, some p => (child "a:pPr".toList p.2).bind (readParaLook t)
  | _, _ => none

/-! ### Titles -/

/-- A manual layout, 21.2.2.95. -/
structure LayoutLook where
  x : Option Text
  y : Option Text
  w : Option Text
  h : Option Text
  inner : Bool
deriving DecidableEq, Repr

/-- A `c:layout` element. The numbers are shares of the chart if the modes are `edge`. -/
def readLayout (e : NodeAttrs × List Node) : Option (Option LayoutLook) :=
  match child "c:manualLayout".toList e.2 with
  | none => some none
  | some m =>
    if cVal "c:xMode".toList m.2 = some "edge".toList ∧ cVal "c:yMode".toList m.2 = some "edge".toList then
      some (some ⟨cVal "c:x".toList m.2, cVal "c:y".toList m.2, cVal "c:w".toList m.2, cVal "c:h".toList m.2,
        cVal "c:layoutTarget".toList m.2 == some "inner".toList⟩)
    else none

/-- The layout among children. -/
def readLayoutIn (ks : List Node) : Option (Option LayoutLook) :=
  (optChild readLayout "c:layout".toList ks).map (·.bind id)

/-- A title: its text (if it is not that of cells) with direction and font, its place, whether it lies over the plot, its format. -/
structure TitleLook where
  text : Option Text
  look : Option TextLook
  layout : Option LayoutLook
  overlay : Bool
  format : FormatLook
deriving DecidableEq, Repr

/-- The text and properties of a rich text, 21.2.2.156: the font is that of the run. -/
def readRichLook (ks : List Node) : Option (Text × TextLook) :=
  match readTurn (attrsOf "a:bodyPr".toList ks), child "a:p".toList ks with
  | some t, some p =>
    match (child "a:r".toList p.2).bind fun r => (child "a:rPr".toList r.2).bind readFontLook,
      (child "a:r".toList p.2).bind fun r => (child "a:t".toList r.2).bind fun x => textOnly x.2 with
    | some f, some s => some (unescapeX s, ⟨t, f, ((attrsOf "a:pPr".toList p.2).lookup "rtl".toList).map (· == "1".toList)⟩)
    | _, _ => none
  | _, _ => none

/-- The rich text of a `c:tx` element, if there is one. -/
def readTxLook (ks : List Node) : Option (Option (Text × TextLook)) :=
  match (child "c:tx".toList ks).bind fun x => child "c:rich".toList x.2 with
  | none => some none
  | some r => (readRichLook r.2).map some

/-- A `c:title` element, 21.2.2.210. -/
def readTitleLook (e : NodeAttrs × List Node) : Option TitleLook :=
  match readTxLook e.2, optChild readTextLook "c:txPr".toList e.2, readLayoutIn e.2, readFormatIn e.2 with
  | some x, some t, some l, some f =>
    some ⟨x.map (·.1), (x.map (·.2)).or t, l, cOn "c:overlay".toList e.2, f⟩
  | _, _, _, _ => none

/-! ### Axes -/

/-- Where an axis crosses the other one. -/
inductive CrossLook where
  | automatic | min | max
  | at (v : Text)
deriving DecidableEq, Repr

/-- The `c:crosses` and `c:crossesAt` elements, 21.2.2.33 and 21.2.2.34. -/
def readCross (ks : List Node) : Option CrossLook :=
  match cVal "c:crossesAt".toList ks with
  | some v => some (.at v)
  | none =>
    match cVal "c:crosses".toList ks with
    | none => some .automatic
    | some v => if v = "autoZero".toList then some .automatic else if v = "min".toList then some .min
      else if v = "max".toList then some .max else none

/-- The number format of an axis and whether it is that of the cells. -/
def readCode (e : NodeAttrs × List Node) : Option (Text × Bool) :=
  match e.1.lookup "formatCode".toList, attrFlag "sourceLinked".toList false e.1 with
  | some c, some b => some (c, b)
  | _, _ => none

/-- Grid lines: their line, automatic if there is none. -/
def readGrid (e : NodeAttrs × List Node) : Option (Option LineLook) := (readFormatIn e.2).map (·.line)

/-- The display units of a value axis and whether they are shown. -/
def readUnits (e : NodeAttrs × List Node) : Option (Text × Bool) :=
  (cVal "c:builtInUnit".toList e.2).map fun u => (u, (child "c:dispUnitsLbl".toList e.2).isSome)

/-- How an axis looks. -/
structure AxisLook where
  kind : Text
  logBase : Option Text
  reversed : Bool
  max : Option Text
  min : Option Text
  hidden : Bool
  side : Option Text
  majorGrid : Option (Option LineLook)
  minorGrid : Option (Option LineLook)
  title : Option TitleLook
  code : Option (Text × Bool)
  majorTick : Option Text
  minorTick : Option Text
  labels : Text
  format : FormatLook
  font : Option TextLook
  cross : CrossLook
  between : Option Text
  auto : Bool
  labelAlign : Option Text
  labelSkip : Option Text
  tickSkip : Option Text
  majorUnit : Option Text
  minorUnit : Option Text
  majorTime : Option Text
  minorTime : Option Text
  units : Option (Text × Bool)
deriving DecidableEq, Repr

/-- An axis element, 21.2.2.25, 21.2.2.39 and 21.2.2.226. -/
def readAxisLook (kind : Text) (ks : List Node) : Option AxisLook :=
  match child "c:scaling".toList ks, optChild readGrid "c:majorGridlines".toList ks, optChild readGrid "c:minorGridlines".toList ks,
    optChild readTitleLook "c:title".toList ks, optChild readCode "c:numFmt".toList ks, readFormatIn ks,
    optChild readTextLook "c:txPr".toList ks, readCross ks, optChild readUnits "c:dispUnits".toList ks with
  | some s, some mg, some ng, some t, some c, some f, some x, some cr, some u =>
    some {
      kind := kind, logBase := cVal "c:logBase".toList s.2, reversed := cVal "c:orientation".toList s.2 == some "maxMin".toList
      max := cVal "c:max".toList s.2, min := cVal "c:min".toList s.2, hidden := cOn "c:delete".toList ks
      side := cVal "c:axPos".toList ks, majorGrid := mg, minorGrid := ng, title := t, code := c
      majorTick := cVal "c:majorTickMark".toList ks, minorTick := cVal "c:minorTickMark".toList ks
      labels := (cVal "c:tickLblPos".toList ks).getD "nextTo".toList, format := f, font := x, cross := cr
      between := cVal "c:crossBetween".toList ks, auto := cOn "c:auto".toList ks, labelAlign := cVal "c:lblAlgn".toList ks
      labelSkip := cVal "c:tickLblSkip".toList ks, tickSkip := cVal "c:tickMarkSkip".toList ks
      majorUnit := cVal "c:majorUnit".toList ks, minorUnit := cVal "c:minorUnit".toList ks
      majorTime := cVal "c:majorTimeUnit".toList ks, minorTime := cVal "c:minorTimeUnit".toList ks, units := u }
  | _, _, _, _, _, _, _, _, _ => none

/-- The plot area of a chart part. -/
def plotAreaOf : Node → Option (List Node)
  | .elem t _ ks =>
    if t = "c:chartSpace".toList then
      ((child "c:chart".toList ks).bind fun c => child "c:plotArea".toList c.2).map (·.2)
    else none
  | .text _ => none

/-- The axes of a chart part. -/
def readAxisLooks (n : Node) : Option (List AxisLook) :=
  (plotAreaOf n).bind fun ks => (elemsIn axisTags ks).mapM fun e => readAxisLook e.1 e.2.2

/-! ### What was asked for -/

/-- A line: the width is rounded to a quarter of a point; no colour is automatic. -/
def LineMeant (l : CLine) (s : LineLook) : Prop :=
  (match l.width with | none => s.width = none | some w => ∃ e, s.width = some e ∧ NearestQuarter w e) ∧
  s.fill = (if l.hidden then some .none else if l.color = .default then none else some (.solid (drawColour l.color l.transparency))) ∧
  (l.hidden = false → s.dash = dashName l.dash)

/-- The fill of a format. -/
def chartFillAsked (f : CFormat) : Option FillSeen2 :=
  if f.noFill then some .none
  else match f.solid, f.pattern, f.gradient with
    | none, none, none => none
    | s, p, g => some (shapeFillMeant { solid := s, pattern := p, gradient := g })

/-- The line of a format. -/
def FormatMeant (f : CFormat) (s : FormatLook) : Prop :=
  s.fill = chartFillAsked f ∧
  (if f.noLine then s.line = some ⟨none, some .none, "solid".toList⟩
   else match f.line with
     | none => s.line = none
     | some l => ∃ k, s.line = some k ∧ LineMeant l k)

/-- A font. Bold letters are automatic (`defaultBold`) unless they are asked for or turned off. -/
structure FontMeant (defaultBold : Bool) (f : CFont) (s : FontLook) : Prop where
  size : s.size = if f.size = 0 then none else some f.size
  bold : s.bold.getD defaultBold = f.bold.getD defaultBold
  italic : s.italic = f.italic
  underline : s.underline = f.underline
  strike : s.strike = f.strikethrough
  colour : s.colour = if f.color.isAutoOrDefault then none else some (drawColour f.color 0)
  face : s.face = f.name
  pitch : s.pitch = f.pitchFamily
  charset : s.charset = f.characterSet

/-- The direction of a text: 270 and 271 stand for stacked letters (`set_rotation`). -/
def turnMeant (vertical : Bool) (f : CFont) : Option TextTurn :=
  match f.rotation with
  | none => if vertical then some (.angle (-5400000)) else none
  | some r => if r = 270 then some .stacked else if r = 271 then some .eastAsian else some (.angle (r * 60000))

/-- Text properties. -/
structure TextMeant (vertical defaultBold : Bool) (f : CFont) (s : TextLook) : Prop where
  turn : s.turn = turnMeant vertical f
  font : FontMeant defaultBold f s.font
  rightToLeft : s.rightToLeft = f.rightToLeft

/-- The line of grid lines, automatic unless one was asked for. -/
def GridMeant (on : Bool) (line : Option CLine) (s : Option (Option LineLook)) : Prop :=
  if on then
    match line with
    | none => s = some none
    | some l => ∃ k, s = some (some k) ∧ LineMeant l k
  else s = none

/-- The calls on one axis. -/
def axisCalls (n : AxisName) (calls : List (AxisName × AxisCall)) : List AxisCall :=
  calls.filterMap fun c => if c.1 = n then some c.2 else none

/-- The grid lines asked for: `true` or `false` by `set_major_gridlines`, and always with a line. -/
def saysMajorGrid : AxisCall → Option Bool
  | .majorGrid b => some b
  | .majorGridLine _ => some true
  | _ => none

/-- The line of the major grid lines. -/
def saysMajorLine : AxisCall → Option (Option CLine)
  | .majorGridLine l => some (some l)
  | _ => none

/-- The minor grid lines. -/
def saysMinorGrid : AxisCall → Option Bool
  | .minorGrid b => some b
  | .minorGridLine _ => some true
  | _ => none

/-- The line of the minor grid lines. -/
def saysMinorLine : AxisCall → Option (Option CLine)
  | .minorGridLine l => some (some l)
  | _ => none

/-- Hidden or not. -/
def saysHidden : AxisCall → Option Bool
  | .hidden b => some b
  | _ => none

/-- The place of the labels. -/
def saysLabelPlace : AxisCall → Option LabelPlace
  | .labelPlace p => some p
  | _ => none

/-- The major tick marks. -/
def saysMajorTick : AxisCall → Option (Option TickType)
  | .majorTick t => some (some t)
  | _ => none

/-- The minor tick marks. -/
def saysMinorTick : AxisCall → Option (Option TickType)
  | .minorTick t => some (some t)
  | _ => none

/-- The number format. -/
def saysNumFormat : AxisCall → Option Text
  | .numFormat v => some v
  | _ => none

/-- The format. -/
def saysFormat : AxisCall → Option CFormat
  | .format f => some f
  | _ => none

/-- The font. -/
def saysFont : AxisCall → Option (Option CFont)
  | .font f => some (some f)
  | _ => none

/-- The maximum. -/
def saysMax : AxisCall → Option (Option Text)
  | .max v => some (some v)
  | _ => none

/-- The minimum. -/
def saysMin : AxisCall → Option (Option Text)
  | .min v => some (some v)
  | _ => none

/-- The base of the logarithms, at least two. -/
def saysLogBase : AxisCall → Option (Option Nat)
  | .logBase n => if 2 ≤ n then some (some n) else none
  | _ => none

/-- Values between the tick marks. -/
def saysBetween : AxisCall → Option Bool
  | .between b => some b
  | _ => none

/-- The display unit. -/
def saysUnit : AxisCall → Option DisplayUnit
  | .displayUnit u => some u
  | _ => none

/-- The alignment of the labels. -/
def saysLabelAlign : AxisCall → Option LabelAlign
  | .labelAlign a => some a
  | _ => none

/-- The interval of the labels. -/
def saysLabelInterval : AxisCall → Option Nat
  | .labelInterval n => some n
  | _ => none

/-- The interval of the tick marks. -/
def saysTickInterval : AxisCall → Option Nat
  | .tickInterval n => some n
  | _ => none

/-- A text axis. -/
def saysText : AxisCall → Option Bool
  | .textAxis b => some b
  | _ => none

/-- The major time unit. -/
def saysMajorTime : AxisCall → Option (Option DateUnit)
  | .majorDateUnit u => some (some u)
  | _ => none

/-- The minor time unit. -/
def saysMinorTime : AxisCall → Option (Option DateUnit)
  | .minorDateUnit u => some (some u)
  | _ => none

/-- A date axis or a category axis. -/
def saysKind : AxisCall → Option AxisType
  | .dateAxis b => some (if b then .date else .category)
  | _ => none

/-- A number that is not negative. -/
def saysMajorUnit : AxisCall → Option (Option Text)
  | .majorUnit false v => some (some v)
  | _ => none

/-- A number that is not negative. -/
def saysMinorUnit : AxisCall → Option (Option Text)
  | .minorUnit false v => some (some v)
  | _ => none

/-- The place where the other axis crosses, as text. -/
def crossMeant : Crossing → CrossLook
  | .automatic => .automatic
  | .min => .min
  | .max => .max
  | .category n => .at (showNat n)
  | .value v => .at v

/-- The names of positions of labels, 21.2.3.47 (ST_TickLblPos). -/
def labelName : LabelPlace → Text
  | .high => "high".toList
  | .low => "low".toList
  | .nextTo => "nextTo".toList
  | .none => "none".toList

/-- The names of tick marks, ST_TickMark. -/
def tickName : TickType → Text
  | .cross => "cross".toList
  | .inside => "in".toList
  | .outside => "out".toList
  | .none => "none".toList

/-- The names of time units, ST_TimeUnit. -/
def timeName : DateUnit → Text
  | .days => "days".toList
  | .months => "months".toList
  | .years => "years".toList

/-- The names of label alignments, ST_LblAlgn. -/
def alignName : LabelAlign → Text
  | .center => "ctr".toList
  | .left => "l".toList
  | .right => "r".toList

/-- The names of display units, ST_BuiltInUnit. -/
def unitName : DisplayUnit → Text
  | .none => []
  | .hundreds => "hundreds".toList
  | .thousands => "thousands".toList
  | .tenThousands => "tenThousands".toList
  | .hundredThousands => "hundredThousands".toList
  | .millions => "millions".toList
  | .tenMillions => "tenMillions".toList
  | .hundredMillions => "hundredMillions".toList
  | .billions => "billions".toList
  | .trillions => "trillions".toList

/-- A display unit is shown unless that is turned off after it was chosen. -/
def saysUnitShown : AxisCall → Option Bool
  | .displayUnit _ => some true
  | .displayUnitShown b => some b
  | _ => none

/-- The name given to an axis: a text, or a range of cells. -/
def saysName : AxisCall → Option (Option (Text × ChartRange))
  | .name t r => some (some (t, r))
  | _ => none

/-- The font of the name. -/
def saysNameFont : AxisCall → Option CFont
  | .nameFont f => some f
  | _ => none

/-- The place of the name. -/
def saysNameLayout : AxisCall → Option CLayout
  | .labelLayout l => some l
  | _ => none

/-- The title of an axis: a text, or the text of cells (`C34` says which), or none. `vertical` is whether such titles are turned. -/
def AxisTitleMeant (vertical : Bool) (calls : List AxisCall) (s : Option TitleLook) : Prop :=
  let font := lastSaid saysNameFont {} calls
  let layout := lastSaid saysNameLayout {} calls
  let look := fun k : TitleLook => (∃ x, k.look = some x ∧ TextMeant vertical true font x) ∧ k.overlay = false ∧
    (k.layout.bind fun l => l.x) = layout.x ∧ (k.layout.bind fun l => l.y) = layout.y
  match lastSaid saysName none calls with
  | none => s = none
  | some (t, r) =>
    if r.sheet ≠ [] then ∃ k, s = some k ∧ k.text = none ∧ look k
    else if t = [] then s = none
    else ∃ k, s = some k ∧ k.text = some t ∧ look k

/-- The names given to an axis are all texts or all ranges. (After a text a range is not used.) -/
def namesAlike (calls : List AxisCall) : Prop :=
  (∀ t r, .name t r ∈ calls → r.sheet = []) ∨ ∀ t r, .name t r ∈ calls → r.sheet ≠ []

/-- The names of the sides, ST_AxPos. -/
def sideName : AxisSide → Text
  | .bottom => "b".toList
  | .left => "l".toList
  | .right => "r".toList
  | .top => "t".toList

/-- The other side. -/
def opposite : AxisSide → AxisSide
  | .bottom => .top
  | .top => .bottom
  | .left => .right
  | .right => .left

/-- The crossing asked for with calls on an axis. -/
def saysCrossing : AxisCall → Option Crossing
  | .crossing c => some c
  | _ => none

/-- What every axis shows: `new` is the axis of a new chart, `calls` the calls on it; `newOther` and `other` are those of the axis it
crosses. An axis is on the other side if its partner is reversed or crossed at its maximum (not said for both: see the counterexample). -/
structure AxisMeant (new newOther : AxisOpts) (calls other : List AxisCall) (s : AxisLook) : Prop where
  side : ¬ (AxisCall.reverse ∈ other ∧ lastSaid saysCrossing newOther.crossing other = .max) →
    s.side = some (sideName (if AxisCall.reverse ∈ other ∨ lastSaid saysCrossing newOther.crossing other = .max
      then opposite new.side else new.side))
  title : namesAlike calls → AxisTitleMeant new.title.horizontal calls s.title
  reversed : s.reversed = decide (AxisCall.reverse ∈ calls)
  hidden : s.hidden = lastSaid saysHidden new.hidden calls
  majorGrid : GridMeant (lastSaid saysMajorGrid new.majorGrid calls) (lastSaid saysMajorLine none calls) s.majorGrid
  minorGrid : GridMeant (lastSaid saysMinorGrid false calls) (lastSaid saysMinorLine none calls) s.minorGrid
  labels : s.labels = labelName (lastSaid saysLabelPlace new.labelPlace calls)
  majorTick : s.majorTick = (lastSaid saysMajorTick new.majorTick calls).map tickName
  minorTick : s.minorTick = (lastSaid saysMinorTick none calls).map tickName
  code : ∀ v, lastSaid saysNumFormat [] calls = v → v ≠ [] → s.code = some (v, false)
  format : FormatMeant (lastSaid saysFormat {} calls) s.format
  font : match lastSaid saysFont none calls with
    | none => s.font = none
    | some f => ∃ t, s.font = some t ∧ TextMeant false false f t

/-- A value axis also shows its scale, its units and where the other axis crosses it. -/
structure ValueMeant (newOther : AxisOpts) (calls other : List AxisCall) (s : AxisLook) : Prop where
  kind : s.kind = "c:valAx".toList
  max : s.max = lastSaid saysMax none calls
  min : s.min = lastSaid saysMin none calls
  logBase : s.logBase = (lastSaid saysLogBase none calls).map showNat
  majorUnit : s.majorUnit = lastSaid saysMajorUnit none calls
  minorUnit : s.minorUnit = lastSaid saysMinorUnit none calls
  cross : s.cross = crossMeant (lastSaid saysCrossing newOther.crossing other)
  between : s.between = some (if lastSaid saysBetween newOther.between other
    then "between".toList else "midCat".toList)
  units : s.units = match lastSaid saysUnit .none calls with
    | .none => none
    | u => some (unitName u, lastSaid saysUnitShown false calls)

/-- Where the value axis crosses a category or date axis. The number of a category means nothing on a value axis. Not decided here: a
hidden axis in an area, bar or stock chart. -/
def CategoryCross (g : ChartGroup) (newOther : AxisOpts) (other : List AxisCall) (s : AxisLook) : Prop :=
  s.hidden = false ∨ ¬ (g = .area ∨ g = .bar ∨ g = .stock) → (∀ n, lastSaid saysCrossing newOther.crossing other ≠ .category n) →
    s.cross = crossMeant (lastSaid saysCrossing newOther.crossing other)

/-- A category axis shows the alignment and the intervals of its labels and whether it is a text axis. An interval of one is what is
automatic. -/
structure CategoryMeant (g : ChartGroup) (newOther : AxisOpts) (calls other : List AxisCall) (s : AxisLook) : Prop where
  kind : s.kind = "c:catAx".toList
  cross : CategoryCross g newOther other s
  auto : (∀ b, AxisCall.dateAxis b ∉ calls ∧ AxisCall.automaticAxis b ∉ calls) →
    s.auto = !lastSaid saysText false calls
  labelAlign : s.labelAlign = some (alignName (lastSaid saysLabelAlign .center calls))
  labelSkip : ∀ n, lastSaid saysLabelInterval 0 calls = n → n ≠ 1 →
    s.labelSkip = if n = 0 then none else some (showNat n)
  tickSkip : ∀ n, lastSaid saysTickInterval 0 calls = n → n ≠ 1 →
    s.tickSkip = if n = 0 then none else some (showNat n)

/-- A date axis shows its scale and its time units. -/
structure DateMeant (g : ChartGroup) (newOther : AxisOpts) (calls other : List AxisCall) (s : AxisLook) : Prop where
  kind : s.kind = "c:dateAx".toList
  cross : CategoryCross g newOther other s
  max : s.max = lastSaid saysMax none calls
  min : s.min = lastSaid saysMin none calls
  majorUnit : s.majorUnit = lastSaid saysMajorUnit none calls
  minorUnit : s.minorUnit = lastSaid saysMinorUnit none calls
  majorTime : s.majorTime = (lastSaid saysMajorTime none calls).map timeName
  minorTime : s.minorTime = (lastSaid saysMinorTime none calls).map timeName

/-- The format has valid colours, and gradients at least two stops. -/
def cFormatOk (f : CFormat) : Bool :=
  (match f.line with | some l => l.color.isValid && decide (l.transparency ≤ 100) | none => true) &&
  formatOk { solid := f.solid, pattern := f.pattern, gradient := f.gradient }

/-- A line with a valid colour. -/
def cLineOk (l : CLine) : Bool := l.color.isValid && decide (l.transparency ≤ 100)

/-- The font has a valid colour, a rotation that `set_rotation` takes, a name that can be written, and no line through the letters
(which is never written). -/
def cFontOk (f : CFont) : Bool :=
  f.color.isValid && attrSafe f.name && !f.strikethrough &&
  (match f.rotation with | some r => decide (-90 ≤ r ∧ r ≤ 90) || r == 270 || r == 271 | none => true)

/-- The texts of a layout can be written. -/
def cLayoutOk (l : CLayout) : Bool :=
  [l.x, l.y, l.width, l.height].all fun o => match o with | some v => attrSafe v | none => true

/-- One of the axes. -/
def axisOf (a : AxesOpts) : AxisName → AxisOpts
  | .x => a.x
  | .y => a.y
  | .x2 => a.x2
  | .y2 => a.y2

/-- The kind of axis asked for. -/
def kindAsked (g : ChartGroup) (calls : List (AxisName × AxisCall)) (n : AxisName) : AxisType :=
  lastSaid saysKind
    (axisOf (newAxes g) n).axisType (axisCalls n calls)

/-- A pair of axes of a chart of type `g`, drawn for a group of type `drawn`: `cat` is the axis of the categories (the horizontal values
of a scatter chart), `val` that of the values. The scale of an axis that is not one of categories is shown. -/
structure PairMeant (g drawn : ChartGroup) (calls : List (AxisName × AxisCall)) (cat val : AxisName) (sc sv : AxisLook) : Prop where
  catCommon : AxisMeant (axisOf (newAxes g) cat) (axisOf (newAxes g) val) (axisCalls cat calls) (axisCalls val calls) sc
  valCommon : AxisMeant (axisOf (newAxes g) val) (axisOf (newAxes g) cat) (axisCalls val calls) (axisCalls cat calls) sv
  values : kindAsked g calls val ≠ .category → ValueMeant (axisOf (newAxes g) cat) (axisCalls val calls) (axisCalls cat calls) sv
  scatter : drawn = .scatter → kindAsked g calls cat ≠ .category →
    ValueMeant (axisOf (newAxes g) val) (axisCalls cat calls) (axisCalls val calls) sc
  category : drawn ≠ .scatter → kindAsked g calls cat ≠ .date →
    CategoryMeant g (axisOf (newAxes g) val) (axisCalls cat calls) (axisCalls val calls) sc
  date : drawn ≠ .scatter → kindAsked g calls cat = .date →
    DateMeant g (axisOf (newAxes g) val) (axisCalls cat calls) (axisCalls val calls) sc

/-- The primary axes come first, then the secondary ones, if a series is drawn on them; the order in a pair is free. -/
def AxesMeant (g drawn2 : ChartGroup) (second : Bool) (calls : List (AxisName × AxisCall)) (s : List AxisLook) : Prop :=
  ∃ p q, s = p ++ q ∧
    (if g = .pie ∨ g = .doughnut then p = []
     else ∃ sc sv, p = [sc, sv] ∧
      (if g = .bar then PairMeant g g calls .y .x sc sv else PairMeant g g calls .x .y sc sv)) ∧
    (if second = false ∨ drawn2 = .pie ∨ drawn2 = .doughnut then q = []
     else ∃ sc sv, (q = [sc, sv] ∨ q = [sv, sc]) ∧
      (if drawn2 = .bar then PairMeant g drawn2 calls .y2 .x2 sc sv else PairMeant g drawn2 calls .x2 .y2 sc sv))

/-- A number as text. -/
def numberText (v : Text) : Bool := attrSafe v && v != []

/-- The texts, colours and angles of a call can be written. -/
def axisCallOk : AxisCall → Bool
  | .name t _ => plain t
  | .nameFont f => cFontOk f
  | .format f => cFormatOk f
  | .font f => cFontOk f
  | .numFormat s => attrSafe s
  | .crossing (.value v) => attrSafe v
  | .max v => numberText v
  | .min v => numberText v
  | .majorUnit _ v => numberText v
  | .minorUnit _ v => numberText v
  | .majorGridLine l => cLineOk l
  | .minorGridLine l => cLineOk l
  | .labelLayout l => cLayoutOk l
  | _ => true

end Verif.Spec
