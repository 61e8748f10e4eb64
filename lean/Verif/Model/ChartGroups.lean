import Verif.Model.ChartSeries
/-!
The settings of a chart as a whole, /repo/src/chart.rs: the elements of its chart groups, the legend, the data table, the chart area and
the plot area, style, protection and what is shown of empty, missing and hidden cells. The functions give the parameters of the skeleton in
`Model/Chart.lean`.

Simplifications. The numbers of layouts are texts, as in `Model/ChartFmt.lean`. `is_chartsheet` and `protection_on` are parameters; the
titles of charts are not here.
-/
namespace Verif

/-- `ChartLegendPosition`, /repo/src/chart.rs:13152-13167. -/
inductive LegendSpot where
  | right | left | top | bottom | topRight
deriving DecidableEq, Repr

/-- Its `Display`, /repo/src/chart.rs:13169-13179. -/
def LegendSpot.text : LegendSpot → Str
  | .top => "t".toList
  | .left => "l".toList
  | .right => "r".toList
  | .bottom => "b".toList
  | .topRight => "tr".toList

/-- `ChartEmptyCells`, /repo/src/chart.rs:13189-13198. -/
inductive EmptyCells where
  | gaps | zero | connected
deriving DecidableEq, Repr

/-- Its `Display`, /repo/src/chart.rs:13200-13208. -/
def EmptyCells.text : EmptyCells → Str
  | .gaps => "gap".toList
  | .zero => "zero".toList
  | .connected => "span".toList

/-- `ChartLegend`, /repo/src/chart.rs:12733-12754. -/
structure CLegend where
  spot : LegendSpot := .right
  hidden : Bool := false
  overlay : Bool := false
  format : CFormat := {}
  font : Option CFont := none
  deleted : List Nat := []
  layout : CLayout := {}
deriving DecidableEq, Repr

/-- The methods of `ChartLegend`. -/
inductive LegendCall where
  | hidden
  | spot (p : LegendSpot)
  | overlay (b : Bool)
  | layout (l : CLayout)
  | format (f : CFormat)
  | font (f : CFont)
  | deleted (l : List Nat)
deriving DecidableEq, Repr

/-- The setters, /repo/src/chart.rs:12802-13139. -/
def CLegend.exec (g : CLegend) : LegendCall → CLegend
  | .hidden => { g with hidden := true }
  | .spot p => { g with spot := p }
  | .overlay b => { g with overlay := b }
  | .layout l => { g with layout := { l with hasDimensions := true } }
  | .format f => { g with format := f }
  | .font f => { g with font := some f }
  | .deleted l => { g with deleted := l }

/-- `ChartDataTable`, /repo/src/chart.rs:17075-17103. -/
structure CTable where
  horizontal : Bool := true
  vertical : Bool := true
  outline : Bool := true
  keys : Bool := false
  font : Option CFont := none
  format : CFormat := {}
deriving DecidableEq, Repr

/-- The methods of `ChartDataTable`. -/
inductive DTableCall where
  | horizontal (b : Bool)
  | vertical (b : Bool)
  | outline (b : Bool)
  | keys (b : Bool)
  | format (f : CFormat)
  | font (f : CFont)
deriving DecidableEq, Repr

/-- The setters, /repo/src/chart.rs:17110-17205. -/
def CTable.exec (t : CTable) : DTableCall → CTable
  | .horizontal b => { t with horizontal := b }
  | .vertical b => { t with vertical := b }
  | .outline b => { t with outline := b }
  | .keys b => { t with keys := b }
  | .format f => { t with format := f }
  | .font f => { t with font := some f }

/-- A new data table with some calls. -/
def newTable (calls : List DTableCall) : CTable := calls.foldl CTable.exec {}

/-- `Chart`, /repo/src/chart.rs:780-840: the fields for the whole chart. -/
structure ChartOpts where
  rotation : Nat := 0
  holeSize : Nat := 50
  upDown : Bool := false
  upFormat : CFormat := {}
  downFormat : CFormat := {}
  highLow : Bool := false
  highLowFormat : CFormat := {}
  dropLines : Bool := false
  dropFormat : CFormat := {}
  style : Nat := 2
  empty : Option EmptyCells := none
  naEmpty : Bool := false
  hiddenData : Bool := false
  table : Option CTable := none
  legend : CLegend := {}
  areaFormat : CFormat := {}
  plotFormat : CFormat := {}
  plotLayout : CLayout := {}
deriving DecidableEq, Repr

/-- The methods of `Chart`, `ChartLegend`, `ChartArea` and `ChartPlotArea` for the whole chart. -/
inductive ChartCall where
  | style (n : Nat)
  | rotation (n : Nat)
  | holeSize (n : Nat)
  | upDownBars (b : Bool)
  | upBarFormat (f : CFormat)
  | downBarFormat (f : CFormat)
  | highLowLines (b : Bool)
  | highLowFormat (f : CFormat)
  | dropLines (b : Bool)
  | dropFormat (f : CFormat)
  | table (t : CTable)
  | emptyCells (e : EmptyCells)
  | naEmpty
  | hiddenData
  | legend (c : LegendCall)
  | areaFormat (f : CFormat)
  | plotFormat (f : CFormat)
  | plotLayout (l : CLayout)
deriving DecidableEq, Repr

/-- The setters, /repo/src/chart.rs:1819-2468, 2760-2780, 17519-17525, 17619-17890. -/
def ChartOpts.exec (o : ChartOpts) : ChartCall → ChartOpts
  | .style n => if 1 ≤ n ∧ n ≤ 48 then { o with style := n } else o
  | .rotation n => if n ≤ 360 then { o with rotation := n } else o
  | .holeSize n => if n ≤ 90 then { o with holeSize := n } else o
  | .upDownBars b => { o with upDown := b }
  | .upBarFormat f => { o with upDown := true, upFormat := f }
  | .downBarFormat f => { o with upDown := true, downFormat := f }
  | .highLowLines b => { o with highLow := b }
  | .highLowFormat f => { o with highLow := true, highLowFormat := f }
  | .dropLines b => { o with dropLines := b }
  | .dropFormat f => { o with dropLines := true, dropFormat := f }
  | .table t => { o with table := some t }
  | .emptyCells e => { o with empty := some e }
  | .naEmpty => { o with naEmpty := true }
  | .hiddenData => { o with hiddenData := true }
  | .legend c => { o with legend := o.legend.exec c }
  | .areaFormat f => { o with areaFormat := f }
  | .plotFormat f => { o with plotFormat := f }
  | .plotLayout l => { o with plotLayout := { l with hasInner := true, hasDimensions := true } }

/-- A new chart with some calls, /repo/src/chart.rs:927-984. -/
def chartOpts (calls : List ChartCall) : ChartOpts := calls.foldl ChartOpts.exec {}

/-! ### The chart groups -/

/-- The grouping of a type of chart, /repo/src/chart.rs:959 and 2917-3043, with `Display` (12604-12613). -/
def ChartKind.grouping : ChartKind → Str
  | .bar | .column => "clustered".toList
  | .areaStacked | .barStacked | .columnStacked | .lineStacked => "stacked".toList
  | .areaPercent | .barPercent | .columnPercent | .linePercent => "percentStacked".toList
  | _ => "standard".toList

/-- The gap and the overlap of a chart before it is written, /repo/src/chart.rs:964-965, 2956-2965 and 2991-3000. -/
def ChartKind.spacing (k : ChartKind) : Nat × Option Int :=
  (150, match k with
    | .barStacked | .barPercent | .columnStacked | .columnPercent => some 100
    | _ => none)

/-- The gap and the overlap after a series is written, /repo/src/chart.rs:3775-3783. -/
def spacingAfter (s : Nat × Option Int) (o : SeriesOpts) : Nat × Option Int :=
  (if o.gap ≠ 150 then o.gap else s.1, if o.overlap.isSome then o.overlap else s.2)

/-- `write_bar_dir`, /repo/src/chart.rs:3172, 3205 and 3727-3731. -/
def dirText (g : ChartGroup) : Str := if g = .bar then "bar".toList else if g = .column then "col".toList else []

/-- The elements of a chart group before the series, /repo/src/chart.rs:3135-3390 with 3734-3753, 5617-5621 and 6158-6168. -/
def ChartKind.headSecs (k : ChartKind) : List (Str × List Tree) :=
  [("c:barDir".toList, textVal "c:barDir".toList (dirText k.group)),
   ("c:grouping".toList, if k.group = .area ∨ k.group = .bar ∨ k.group = .column ∨ k.group = .line then
      [valText "c:grouping".toList k.grouping] else []),
   ("c:radarStyle".toList, if k.group = .radar then
      [valText "c:radarStyle".toList (if k = .radarFilled then "filled".toList else "marker".toList)] else []),
   ("c:scatterStyle".toList, if k.group = .scatter then
      [valText "c:scatterStyle".toList (if k = .scatterSmooth ∨ k = .scatterSmoothMarkers then "smoothMarker".toList else "lineMarker".toList)] else []),
   ("c:varyColors".toList, oneIf "c:varyColors".toList (k.group = .pie || k.group = .doughnut))]

/-- An element that is empty or has a format, `write_up_bars` and the others, /repo/src/chart.rs:5397-5450. -/
def drawnTree (t : Str) (f : CFormat) : Tree := if f.hasFormatting then .node t [] f.trees else .empty t []

/-- `write_up_down_bars`, /repo/src/chart.rs:5381-5394. -/
def upDownTree (o : ChartOpts) : Tree :=
  .node "c:upDownBars".toList []
    [valText "c:gapWidth".toList (showNat 150), drawnTree "c:upBars".toList o.upFormat, drawnTree "c:downBars".toList o.downFormat]

/-- The elements of a chart group after the series, /repo/src/chart.rs:3135-3390, for the series on the primary axes or the others. -/
def ChartOpts.tailSecs (o : ChartOpts) (k : ChartKind) (primary : Bool) (s : Nat × Option Int) : List (Str × List Tree) :=
  [("c:firstSliceAng".toList, if k.group = .pie ∨ k.group = .doughnut then [valText "c:firstSliceAng".toList (showNat o.rotation)] else []),
   ("c:holeSize".toList, if k.group = .doughnut then [valText "c:holeSize".toList (showNat o.holeSize)] else []),
   ("c:gapWidth".toList, if (k.group = .bar ∨ k.group = .column) ∧ s.1 ≠ 150 then [valText "c:gapWidth".toList (showNat s.1)] else []),
   ("c:overlap".toList, if k.group = .bar ∨ k.group = .column then optVal "c:overlap".toList (s.2.map showInt) else []),
   ("c:dropLines".toList, if (k.group = .area ∨ k.group = .line ∨ k.group = .stock) ∧ o.dropLines = true then [drawnTree "c:dropLines".toList o.dropFormat] else []),
   ("c:hiLowLines".toList, if (k.group = .line ∨ (k.group = .stock ∧ primary = true)) ∧ o.highLow = true then
      [drawnTree "c:hiLowLines".toList o.highLowFormat] else []),
   ("c:upDownBars".toList, if (k.group = .line ∨ k.group = .stock) ∧ o.upDown = true then [upDownTree o] else []),
   ("c:marker".toList, oneIf "c:marker".toList (k.group = .line))]

/-- The gap and the overlap after some series, /repo/src/chart.rs:3769-3783. -/
def spacingOf (k : ChartKind) (s : Nat × Option Int) (ss : List GivenSeries) : Nat × Option Int :=
  (ss.map (·.opts k)).foldl spacingAfter s

/-- The chart groups of a chart, /repo/src/chart.rs:3135-3390: first the series on the primary axes; the gap and the overlap
stay in the chart for the other series, and after it is written. -/
def ChartBody.withGroups (b : ChartBody) (k : ChartKind) (o : ChartOpts) (ss : List GivenSeries) (start : Nat × Option Int) : ChartBody :=
  { b with
    head := secTrees k.headSecs
    tail := secTrees (o.tailSecs k true (spacingOf k start (ss.filter fun g => !g.data.secondary)))
    tail2 := secTrees (o.tailSecs k false
      (spacingOf k (spacingOf k start (ss.filter fun g => !g.data.secondary)) (ss.filter fun g => g.data.secondary))) }

/-- The gap and the overlap in a chart that was written, /repo/src/chart.rs:3775-3783. -/
def spacingWritten (k : ChartKind) (start : Nat × Option Int) (ss : List GivenSeries) : Nat × Option Int :=
  spacingOf k (spacingOf k start (ss.filter fun g => !g.data.secondary)) (ss.filter fun g => g.data.secondary)

/-! ### The legend and the rest of the part -/

/-- The indices of series that are not in the legend, /repo/src/chart.rs:2846-2853. -/
def deletedFrom (i : Nat) : List SeriesOpts → List Nat
  | [] => []
  | s :: ss => (if s.deleted then [i] else []) ++ deletedFrom (i + 1) ss

/-- The indices of trendlines that are not in the legend, /repo/src/chart.rs:2855-2865. -/
def deletedTrends (i : Nat) : List SeriesOpts → List Nat
  | [] => []
  | s :: ss =>
    if s.trend.kind = .none then deletedTrends i ss
    else (if s.trend.deleted then [i] else []) ++ deletedTrends (i + 1) ss

/-- `deleted_legend_entries`, /repo/src/chart.rs:2837-2868. -/
def CLegend.entries (g : CLegend) (ss : List SeriesOpts) : List Nat :=
  if g.deleted ≠ [] then g.deleted else deletedFrom 0 ss ++ deletedTrends ss.length ss

/-- `write_legend_entry`, /repo/src/chart.rs:4915-4925. -/
def entryTree (i : Nat) : Tree := .node "c:legendEntry".toList [] [valText "c:idx".toList (showNat i), valOne "c:delete".toList]

/-- The font of a legend, /repo/src/chart.rs:4884-4897. -/
def CLegend.fontFor (g : CLegend) (k : ChartKind) : Option CFont :=
  if k.group = .pie ∨ k.group = .doughnut then
    some { g.font.getD {} with rightToLeft := some (((g.font.getD {}).rightToLeft).getD false) }
  else g.font

/-- The elements of a legend, /repo/src/chart.rs:4856-4902. -/
def CLegend.secs (g : CLegend) (k : ChartKind) (ss : List SeriesOpts) : List (Str × List Tree) :=
  [("c:legendPos".toList, [valText "c:legendPos".toList g.spot.text]),
   ("c:legendEntry".toList, (g.entries ss).map entryTree),
   ("c:layout".toList, [g.layout.tree]),
   ("c:spPr".toList, g.format.trees),
   ("c:overlay".toList, oneIf "c:overlay".toList g.overlay),
   ("c:txPr".toList, ((g.fontFor k).map (·.txPrTree false)).toList)]

/-- `write_legend`, /repo/src/chart.rs:4849-4905. -/
def CLegend.trees (g : CLegend) (k : ChartKind) (ss : List SeriesOpts) : List Tree :=
  if g.hidden then [] else [.node "c:legend".toList [] (secTrees (g.secs k ss))]

/-- The elements of `write_data_table`, /repo/src/chart.rs:5453-5485. -/
def CTable.secs (t : CTable) : List (Str × List Tree) :=
  [("c:showHorzBorder".toList, oneIf "c:showHorzBorder".toList t.horizontal),
   ("c:showVertBorder".toList, oneIf "c:showVertBorder".toList t.vertical),
   ("c:showOutline".toList, oneIf "c:showOutline".toList t.outline),
   ("c:showKeys".toList, oneIf "c:showKeys".toList t.keys),
   ("c:spPr".toList, t.format.trees),
   ("c:txPr".toList, (t.font.map (·.txPrTree false)).toList)]

/-- `write_data_table`, /repo/src/chart.rs:5453-5485. -/
def CTable.tree (t : CTable) : Tree := .node "c:dTable".toList [] (secTrees t.secs)

/-- `write_disp_na_as_blank`, /repo/src/chart.rs:6387-6405. -/
def naExt : Tree :=
  .node "c:extLst".toList []
    [.node "c:ext".toList
      [("uri".toList, "{56B9EC1D-385E-4148-901F-78D8002777C0}".toList),
       ("xmlns:c16r3".toList, "http://schemas.microsoft.com/office/drawing/2017/03/chart".toList)]
      [.node "c16r3:dataDisplayOptions16".toList [] [valOne "c16r3:dispNaAsBlank".toList]]]

/-- The elements after the axes, /repo/src/chart.rs:3611-3617. -/
def ChartOpts.areaSecs (o : ChartOpts) : List (Str × List Tree) :=
  [("c:dTable".toList, (o.table.map CTable.tree).toList), ("c:spPr".toList, o.plotFormat.trees)]

/-- The elements after the plot area, /repo/src/chart.rs:3472-3486. -/
def ChartOpts.chartSecs (o : ChartOpts) (k : ChartKind) (ss : List SeriesOpts) : List (Str × List Tree) :=
  [("c:legend".toList, o.legend.trees k ss),
   ("c:plotVisOnly".toList, oneIf "c:plotVisOnly".toList (!o.hiddenData)),
   ("c:dispBlanksAs".toList, optVal "c:dispBlanksAs".toList (o.empty.map EmptyCells.text)),
   ("c:extLst".toList, if o.naEmpty then [naExt] else [])]

/-- The elements before `c:chart`, /repo/src/chart.rs:3403-3414. -/
def ChartOpts.preSecs (o : ChartOpts) (locked : Bool) : List (Str × List Tree) :=
  [("c:lang".toList, [valText "c:lang".toList "en-US".toList]),
   ("c:style".toList, if o.style ≠ 2 then [valText "c:style".toList (showNat o.style)] else []),
   ("c:protection".toList, if locked then [.empty "c:protection".toList []] else [])]

/-- `write_print_settings`, /repo/src/chart.rs:4940-4977. -/
def printTree : Tree :=
  .node "c:printSettings".toList []
    [.empty "c:headerFooter".toList [],
     .empty "c:pageMargins".toList
       [("b".toList, "0.75".toList), ("l".toList, "0.7".toList), ("r".toList, "0.7".toList), ("t".toList, "0.75".toList),
        ("header".toList, "0.3".toList), ("footer".toList, "0.3".toList)],
     .empty "c:pageSetup".toList []]

/-- The elements after `c:chart`, /repo/src/chart.rs:3419-3425. -/
def ChartOpts.postSecs (o : ChartOpts) (sheet : Bool) : List (Str × List Tree) :=
  [("c:spPr".toList, o.areaFormat.trees), ("c:printSettings".toList, if sheet then [] else [printTree])]

/-- A chart combined with another: its type, its series and the calls on it. -/
structure SecondChart where
  kind : ChartKind
  series : List GivenSeries
  calls : List ChartCall

/-- The combined chart with its chart groups. -/
def secondGroups : Option ChartBody → Option SecondChart → Option ChartBody
  | some b, some p => some (b.withGroups p.kind (chartOpts p.calls) p.series p.kind.spacing)
  | x, _ => x

/-- A chart with the calls on it, /repo/src/chart.rs:3397-3489 and 3512-3620: of the combined chart (`second`) only the chart groups are
written. `start` is the gap and the overlap of the chart; `sheet` says that it is on a chartsheet, `locked` that this is protected. -/
def Chart.withOpts (c : Chart) (k : ChartKind) (calls : List ChartCall) (ss : List GivenSeries) (second : Option SecondChart)
    (start : Nat × Option Int) (sheet locked : Bool) : Chart :=
  { c with
    body := c.body.withGroups k (chartOpts calls) ss start
    combined := secondGroups c.combined second
    spacePre := secTrees ((chartOpts calls).preSecs locked)
    layout := [(chartOpts calls).plotLayout.tree]
    areaTail := secTrees (chartOpts calls).areaSecs
    chartTail := secTrees ((chartOpts calls).chartSecs k (ss.map (·.opts k)))
    spacePost := secTrees ((chartOpts calls).postSecs sheet) }

end Verif
