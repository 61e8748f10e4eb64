import Verif.Spec.ChartSeries
import Verif.Model.ChartGroups
/-!
How a reader sees the chart groups and the settings of a whole chart (ECMA-376 part 1, 21.2), and what was asked for (C75, C76).
-/
namespace Verif.Spec
open Verif

/-! ### Chart groups -/

/-- Bars between the first and the last line: the format of those that go up and of those that go down. -/
structure UpDownLook where
  gap : Option Text
  up : Option FormatLook
  down : Option FormatLook
deriving DecidableEq, Repr

/-- A `c:upDownBars` element, 21.2.2.218. -/
def readUpDown (e : NodeAttrs × List Node) : Option UpDownLook :=
  match optChild (fun c => readFormatIn c.2) "c:upBars".toList e.2, optChild (fun c => readFormatIn c.2) "c:downBars".toList e.2 with
  | some u, some d => some ⟨cVal "c:gapWidth".toList e.2, u, d⟩
  | _, _ => none

/-- A chart group. Numbers are kept as texts. -/
structure ChartGroupLook where
  kind : Text
  dir : Option Text
  grouping : Option Text
  radar : Option Text
  scatter : Option Text
  vary : Bool
  slice : Option Text
  hole : Option Text
  gap : Option Text
  overlap : Option Text
  drop : Option FormatLook
  highLow : Option FormatLook
  upDown : Option UpDownLook
  markers : Bool
deriving DecidableEq, Repr

/-- A chart group element, 21.2.2.3 and the others. -/
def readGroupLook (kind : Text) (ks : List Node) : Option ChartGroupLook :=
  match optChild (fun c => readFormatIn c.2) "c:dropLines".toList ks, optChild (fun c => readFormatIn c.2) "c:hiLowLines".toList ks,
    optChild readUpDown "c:upDownBars".toList ks with
  | some drop, some high, some bars =>
    some ⟨kind, cVal "c:barDir".toList ks, cVal "c:grouping".toList ks, cVal "c:radarStyle".toList ks, cVal "c:scatterStyle".toList ks,
      cOn "c:varyColors".toList ks, cVal "c:firstSliceAng".toList ks, cVal "c:holeSize".toList ks, cVal "c:gapWidth".toList ks,
      cVal "c:overlap".toList ks, drop, high, bars, cOn "c:marker".toList ks⟩
  | _, _, _ => none

/-- The chart groups of a chart part. -/
def readGroupLooks (n : Node) : Option (List ChartGroupLook) :=
  (plotAreaOf n).bind fun ks => (elemsIn groupTags ks).mapM fun e => readGroupLook e.1 e.2.2

/-! ### The rest of a chart -/

/-- A legend; `entries` are the positions of the entries that are not shown. -/
structure LegendLook where
  spot : Option Text
  entries : List Nat
  layout : Option LayoutLook
  overlay : Bool
  format : FormatLook
  text : Option TextLook
deriving DecidableEq, Repr

/-- A `c:legendEntry` element that removes an entry, 21.2.2.94. -/
def readEntry (e : NodeAttrs × List Node) : Option Nat := if cOn "c:delete".toList e.2 then readIdx e.2 else none

/-- A `c:legend` element, 21.2.2.93. -/
def readLegend (e : NodeAttrs × List Node) : Option LegendLook :=
  match (elems "c:legendEntry".toList e.2).mapM readEntry, readLayoutIn e.2, readFormatIn e.2, optChild readTextLook "c:txPr".toList e.2 with
  | some es, some l, some f, some t => some ⟨cVal "c:legendPos".toList e.2, es, l, cOn "c:overlay".toList e.2, f, t⟩
  | _, _, _, _ => none

/-- A data table under a chart. -/
structure DataTableLook where
  horizontal : Bool
  vertical : Bool
  outline : Bool
  keys : Bool
  format : FormatLook
  text : Option TextLook
deriving DecidableEq, Repr

/-- A `c:dTable` element, 21.2.2.54. -/
def readDataTable (e : NodeAttrs × List Node) : Option DataTableLook :=
  match readFormatIn e.2, optChild readTextLook "c:txPr".toList e.2 with
  | some f, some t => some ⟨cOn "c:showHorzBorder".toList e.2, cOn "c:showVertBorder".toList e.2, cOn "c:showOutline".toList e.2,
      cOn "c:showKeys".toList e.2, f, t⟩
  | _, _ => none

/-- A chart as a whole. -/
structure ChartLook where
  style : Option Text
  locked : Bool
  legend : Option LegendLook
  table : Option DataTableLook
  plotLayout : Option LayoutLook
  plotFormat : FormatLook
  areaFormat : FormatLook
  visibleOnly : Bool
  empty : Option Text
  naEmpty : Bool
deriving DecidableEq, Repr

/-- Are missing values (`#N/A`) shown as empty cells? An extension of Excel 2016. -/
def readNaEmpty (ks : List Node) : Bool :=
  match (child "c:extLst".toList ks).bind fun x => (child "c:ext".toList x.2).bind fun e => child "c16r3:dataDisplayOptions16".toList e.2 with
  | some o => cOn "c16r3:dispNaAsBlank".toList o.2
  | none => false

/-- A chart part, 21.2.2.29: its `c:chart` and the plot area. -/
def readChartParts (ks chart area : List Node) : Option ChartLook :=
  match optChild readLegend "c:legend".toList chart, optChild readDataTable "c:dTable".toList area, readLayoutIn area, readFormatIn area,
    readFormatIn ks with
  | some g, some t, some l, some f, some a =>
    some ⟨cVal "c:style".toList ks, (child "c:protection".toList ks).isSome, g, t, l, f, a, cOn "c:plotVisOnly".toList chart,
      cVal "c:dispBlanksAs".toList chart, readNaEmpty chart⟩
  | _, _, _, _, _ => none

/-- A chart part, 21.2.2.29. -/
def readChartLook : Node → Option ChartLook
  | .elem t _ ks =>
    if t = "c:chartSpace".toList then
      (child "c:chart".toList ks).bind fun c => (child "c:plotArea".toList c.2).bind fun a => readChartParts ks c.2 a.2
    else none
  | .text _ => none

/-! ### What was asked for -/

def saysStyle : ChartCall → Option Nat
  | .style n => if 1 ≤ n ∧ n ≤ 48 then some n else none
  | _ => none

def saysRotation : ChartCall → Option Nat
  | .rotation n => if n ≤ 360 then some n else none
  | _ => none

def saysHole : ChartCall → Option Nat
  | .holeSize n => if n ≤ 90 then some n else none
  | _ => none

/-- A format turns the lines or bars on, too. -/
def saysUpDown : ChartCall → Option Bool
  | .upDownBars b => some b
  | .upBarFormat _ | .downBarFormat _ => some true
  | _ => none

def saysUpFormat : ChartCall → Option CFormat
  | .upBarFormat f => some f
  | _ => none

def saysDownFormat : ChartCall → Option CFormat
  | .downBarFormat f => some f
  | _ => none

def saysHighLow : ChartCall → Option Bool
  | .highLowLines b => some b
  | .highLowFormat _ => some true
  | _ => none

def saysHighLowFormat : ChartCall → Option CFormat
  | .highLowFormat f => some f
  | _ => none

def saysDrop : ChartCall → Option Bool
  | .dropLines b => some b
  | .dropFormat _ => some true
  | _ => none

def saysDropFormat : ChartCall → Option CFormat
  | .dropFormat f => some f
  | _ => none

def saysDataTable : ChartCall → Option (Option CTable)
  | .table t => some (some t)
  | _ => none

def saysEmpty : ChartCall → Option (Option EmptyCells)
  | .emptyCells e => some (some e)
  | _ => none

def saysAreaFormat : ChartCall → Option CFormat
  | .areaFormat f => some f
  | _ => none

def saysPlotFormat : ChartCall → Option CFormat
  | .plotFormat f => some f
  | _ => none

def saysPlotLayout : ChartCall → Option CLayout
  | .plotLayout l => some l
  | _ => none

/-- The calls on the legend of a chart. -/
def legendCalls (calls : List ChartCall) : List LegendCall :=
  calls.filterMap fun c => match c with | .legend x => some x | _ => none

def saysLegendSpot : LegendCall → Option LegendSpot
  | .spot p => some p
  | _ => none

def saysLegendOverlay : LegendCall → Option Bool
  | .overlay b => some b
  | _ => none

def saysLegendLayout : LegendCall → Option CLayout
  | .layout l => some l
  | _ => none

def saysLegendFormat : LegendCall → Option CFormat
  | .format f => some f
  | _ => none

def saysLegendFont : LegendCall → Option (Option CFont)
  | .font f => some (some f)
  | _ => none

def saysDeleted : LegendCall → Option (List Nat)
  | .deleted l => some l
  | _ => none

def saysHorizontal : DTableCall → Option Bool
  | .horizontal b => some b
  | _ => none

def saysVertical : DTableCall → Option Bool
  | .vertical b => some b
  | _ => none

def saysOutline : DTableCall → Option Bool
  | .outline b => some b
  | _ => none

def saysKeys : DTableCall → Option Bool
  | .keys b => some b
  | _ => none

def saysTableFormat : DTableCall → Option CFormat
  | .format f => some f
  | _ => none

def saysTableFont : DTableCall → Option (Option CFont)
  | .font f => some (some f)
  | _ => none

/-- `set_gap` of a series: 0 to 500 percent. -/
def saysGap : SeriesCall → Option Nat
  | .gap n => if n ≤ 500 then some n else none
  | _ => none

/-- `set_overlap` of a series: -100 to 100 percent. -/
def saysOverlap : SeriesCall → Option (Option Int)
  | .overlap n => if -100 ≤ n ∧ n ≤ 100 then some (some n) else none
  | _ => none

/-- The grouping of a type of chart. -/
def groupingMeant : ChartKind → Option Text
  | .area | .line => some "standard".toList
  | .bar | .column => some "clustered".toList
  | .areaStacked | .barStacked | .columnStacked | .lineStacked => some "stacked".toList
  | .areaPercent | .barPercent | .columnPercent | .linePercent => some "percentStacked".toList
  | _ => none

/-- Stacked bars lie over each other. -/
def usualOverlap : ChartKind → Option Int
  | .barStacked | .barPercent | .columnStacked | .columnPercent => some 100
  | _ => none

/-- The direction of bars. -/
def dirMeant : ChartGroup → Option Text
  | .bar => some "bar".toList
  | .column => some "col".toList
  | _ => none

/-- The style of a radar chart. -/
def radarMeant : ChartKind → Option Text
  | .radar | .radarMarkers => some "marker".toList
  | .radarFilled => some "filled".toList
  | _ => none

/-- The style of a scatter chart. -/
def scatterMeant : ChartKind → Option Text
  | .scatterSmooth | .scatterSmoothMarkers => some "smoothMarker".toList
  | .scatter | .scatterStraight | .scatterStraightMarkers => some "lineMarker".toList
  | _ => none

/-- Something is drawn with a format, if it was asked for. -/
def DrawnMeant (on : Bool) (f : CFormat) (s : Option FormatLook) : Prop :=
  if on then ∃ q, s = some q ∧ FormatMeant f q else s = none

/-- The calls on some series, in order. -/
def callsOfSeries (ss : List GivenSeries) : List SeriesCall := ss.flatMap (·.calls)

/-- A chart group of a chart of type `k`, with the series `ss`, on the primary axes or the others. -/
structure GroupLookMeant (k : ChartKind) (calls : List ChartCall) (primary : Bool) (ss : List GivenSeries) (s : ChartGroupLook) : Prop where
  kind : s.kind = groupElement k.group
  dir : s.dir = dirMeant k.group
  grouping : s.grouping = groupingMeant k
  radar : s.radar = radarMeant k
  scatter : s.scatter = scatterMeant k
  vary : s.vary = decide (k.group = .pie ∨ k.group = .doughnut)
  slice : s.slice = if k.group = .pie ∨ k.group = .doughnut then some (showNat (lastSaid saysRotation 0 calls)) else none
  hole : s.hole = if k.group = .doughnut then some (showNat (lastSaid saysHole 50 calls)) else none
  gap : if k.group = .bar ∨ k.group = .column then s.gap.getD "150".toList = showNat (lastSaid saysGap 150 (callsOfSeries ss)) else s.gap = none
  overlap : s.overlap = if k.group = .bar ∨ k.group = .column then (lastSaid saysOverlap (usualOverlap k) (callsOfSeries ss)).map showInt else none
  drop : DrawnMeant (decide (k.group = .area ∨ k.group = .line ∨ k.group = .stock) && lastSaid saysDrop false calls)
    (lastSaid saysDropFormat {} calls) s.drop
  highLow : DrawnMeant (decide (k.group = .line ∨ (k.group = .stock ∧ primary = true)) && lastSaid saysHighLow false calls)
    (lastSaid saysHighLowFormat {} calls) s.highLow
  upDown : if (k.group = .line ∨ k.group = .stock) ∧ lastSaid saysUpDown false calls = true then
      ∃ f g, s.upDown = some ⟨some "150".toList, some f, some g⟩ ∧ FormatMeant (lastSaid saysUpFormat {} calls) f ∧
        FormatMeant (lastSaid saysDownFormat {} calls) g
    else s.upDown = none
  markers : s.markers = decide (k.group = .line)

/-- The chart groups of a chart: one for the series on the primary axes, one for those on the secondary axes. -/
def groupsAsked (k : ChartKind) (calls : List ChartCall) (ss : List GivenSeries) : List (ChartKind × List ChartCall × Bool × List GivenSeries) :=
  (if ss.filter (fun g => !g.data.secondary) ≠ [] then [(k, calls, true, ss.filter fun g => !g.data.secondary)] else []) ++
  (if ss.filter (fun g => g.data.secondary) ≠ [] then [(k, calls, false, ss.filter fun g => g.data.secondary)] else [])

/-- The chart groups of a chart and of the one combined with it. -/
def allGroups (k : ChartKind) (calls : List ChartCall) (ss : List GivenSeries) (second : Option SecondChart) :
    List (ChartKind × List ChartCall × Bool × List GivenSeries) :=
  groupsAsked k calls ss ++ (match second with | some p => groupsAsked p.kind p.calls p.series | none => [])

/-- The gap of bars as the default is not asked for by a series on its own, and what series on the primary axes ask for does not matter for
the others: either they ask for nothing, or the others do. -/
structure SpacingClear (k : ChartKind) (ss : List GivenSeries) : Prop where
  usual : k.group = .bar ∨ k.group = .column → ∀ g ∈ ss, g.calls.reverse.findSome? saysGap ≠ some 150
  gap : k.group = .bar ∨ k.group = .column → (∃ g ∈ ss, g.data.secondary = true) →
    lastSaid saysGap 150 (callsOfSeries (ss.filter fun g => !g.data.secondary)) = 150 ∨
    ∃ g ∈ ss, g.data.secondary = true ∧ ∃ c ∈ g.calls, saysGap c ≠ none
  overlap : k.group = .bar ∨ k.group = .column → (∃ g ∈ ss, g.data.secondary = true) →
    lastSaid saysOverlap (usualOverlap k) (callsOfSeries (ss.filter fun g => !g.data.secondary)) = usualOverlap k ∨
    ∃ g ∈ ss, g.data.secondary = true ∧ ∃ c ∈ g.calls, saysOverlap c ≠ none

/-- The name of the place of a legend. -/
def legendName : LegendSpot → Text
  | .right => "r".toList
  | .left => "l".toList
  | .top => "t".toList
  | .bottom => "b".toList
  | .topRight => "tr".toList

/-- How empty cells are drawn. -/
def emptyName : EmptyCells → Text
  | .gaps => "gap".toList
  | .zero => "zero".toList
  | .connected => "span".toList

/-- A layout: the size, too, if there is one (`sized`). -/
def layoutMeant (l : CLayout) (inner : Bool) : Option LayoutLook :=
  if l.isSet then some ⟨l.x, l.y, l.width, l.height, inner⟩ else none

/-- A font of a legend or a data table, and the direction of the letters. -/
structure PlainTextMeant (f : CFont) (s : TextLook) : Prop where
  turn : s.turn = turnMeant false f
  font : FontMeant false f s.font
  rightToLeft : s.rightToLeft.getD false = f.rightToLeft.getD false

/-- The font of a legend or a data table: automatic if none was asked for. -/
def MaybeTextMeant (f : Option CFont) (s : Option TextLook) : Prop :=
  match f with
  | none => ∀ q, s = some q → PlainTextMeant {} q
  | some f => ∃ q, s = some q ∧ PlainTextMeant f q

/-- Was a series removed from the legend? -/
def saysGone : SeriesCall → Option Bool
  | .deleted b => some b
  | _ => none

/-- Was a trendline removed from the legend? -/
def saysTrendGone : TrendCall → Option Bool
  | .deleted b => some b
  | _ => none

/-- The entries of a legend, first of the series, then of the trendlines: `true` for those that are removed. -/
def legendBits (ss : List GivenSeries) : List Bool :=
  ss.map (fun g => lastSaid saysGone false g.calls) ++
  (ss.filter fun g => (((lastSaid saysTrend none g.calls).getD {}).kind != .none)).map fun g => ((lastSaid saysTrend none g.calls).getD {}).deleted

/-- The positions at which a list has `true`. -/
def trueAt (l : List Bool) : List Nat := (l.zipIdx.filter (·.1)).map (·.2)

/-- The series of a chart in the order in which a legend shows them, those of a combined chart last. -/
def inLegend (ss : List GivenSeries) (second : Option SecondChart) : List GivenSeries :=
  let parts := fun ss : List GivenSeries => ss.filter (fun g => !g.data.secondary) ++ ss.filter fun g => g.data.secondary
  parts ss ++ (match second with | some p => parts p.series | none => [])

/-- The entries that are not in the legend: those that were asked for by position, otherwise those of series and trendlines. -/
def entriesAsked (calls : List LegendCall) (ss : List GivenSeries) : List Nat :=
  if lastSaid saysDeleted [] calls ≠ [] then lastSaid saysDeleted [] calls else trueAt (legendBits ss)

/-- A legend. -/
structure LegendMeant (calls : List LegendCall) (ss : List GivenSeries) (s : LegendLook) : Prop where
  spot : s.spot = some (legendName (lastSaid saysLegendSpot .right calls))
  entries : s.entries = entriesAsked calls ss
  layout : s.layout = layoutMeant (lastSaid saysLegendLayout {} calls) (lastSaid saysLegendLayout {} calls).hasInner
  overlay : s.overlay = lastSaid saysLegendOverlay false calls
  format : FormatMeant (lastSaid saysLegendFormat {} calls) s.format
  text : MaybeTextMeant (lastSaid saysLegendFont none calls) s.text

/-- A data table. -/
structure DataTableMeant (calls : List DTableCall) (s : DataTableLook) : Prop where
  horizontal : s.horizontal = lastSaid saysHorizontal true calls
  vertical : s.vertical = lastSaid saysVertical true calls
  outline : s.outline = lastSaid saysOutline true calls
  keys : s.keys = lastSaid saysKeys false calls
  format : FormatMeant (lastSaid saysTableFormat {} calls) s.format
  text : MaybeTextMeant (lastSaid saysTableFont none calls) s.text

/-- A chart as a whole. Style 2 is that of charts without one. -/
structure ChartLookMeant (calls : List ChartCall) (ss : List GivenSeries) (locked : Bool) (s : ChartLook) : Prop where
  style : s.style.getD "2".toList = showNat (lastSaid saysStyle 2 calls)
  locked : s.locked = locked
  legend : if ChartCall.legend .hidden ∈ calls then s.legend = none else ∃ q, s.legend = some q ∧ LegendMeant (legendCalls calls) ss q
  noTable : lastSaid saysDataTable none calls = none → s.table = none
  table : ∀ t, lastSaid saysDataTable none calls = some (newTable t) → ∃ q, s.table = some q ∧ DataTableMeant t q
  plotLayout : s.plotLayout = layoutMeant (lastSaid saysPlotLayout {} calls) true
  plotFormat : FormatMeant (lastSaid saysPlotFormat {} calls) s.plotFormat
  areaFormat : FormatMeant (lastSaid saysAreaFormat {} calls) s.areaFormat
  visibleOnly : s.visibleOnly = !decide (ChartCall.hiddenData ∈ calls)
  empty : s.empty = (lastSaid saysEmpty none calls).map emptyName
  naEmpty : s.naEmpty = decide (ChartCall.naEmpty ∈ calls)

/-- The order of the series in the legend is that in which they were added, and there is no combined chart; or no entry is removed by a
series or a trendline; or the entries are given by position. -/
def LegendClear (calls : List LegendCall) (ss : List GivenSeries) (second : Option SecondChart) : Prop :=
  lastSaid saysDeleted [] calls ≠ [] ∨ (legendBits (inLegend ss second)).all (!·) = true ∨ inLegend ss second = ss

/-! ### What can be written -/

/-- The parts of a data table can be written. -/
def dTableOk (t : CTable) : Bool := cFormatOk t.format && (match t.font with | some f => cFontOk f | none => true)

/-- The parts of a call on a legend can be written. -/
def legendCallOk : LegendCall → Bool
  | .layout l => cLayoutOk l
  | .format f => cFormatOk f
  | .font f => cFontOk f
  | _ => true

/-- The parts of a call on a chart can be written. -/
def chartCallOk : ChartCall → Bool
  | .upBarFormat f | .downBarFormat f | .highLowFormat f | .dropFormat f | .areaFormat f | .plotFormat f => cFormatOk f
  | .table t => dTableOk t
  | .legend c => legendCallOk c
  | .plotLayout l => cLayoutOk l
  | _ => true

end Verif.Spec
