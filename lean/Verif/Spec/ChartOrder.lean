import Verif.Spec.ChartGroups
import Verif.Spec.Setup
/-!
The order of the elements of a chart part (C77), from the schema of DrawingML charts, ECMA-376 part 1, A.5.1.
-/
namespace Verif.Spec
open Verif

/-- CT_ChartSpace. -/
def chartSpaceOrder : List Text := ["c:date1904".toList, "c:lang".toList, "c:roundedCorners".toList, "c:style".toList, "c:clrMapOvr".toList,
  "c:pivotSource".toList, "c:protection".toList, "c:chart".toList, "c:spPr".toList, "c:txPr".toList, "c:externalData".toList,
  "c:printSettings".toList, "c:userShapes".toList, "c:extLst".toList]

/-- CT_Chart. -/
def chartOrder : List Text := ["c:title".toList, "c:autoTitleDeleted".toList, "c:pivotFmts".toList, "c:view3D".toList, "c:floor".toList,
  "c:sideWall".toList, "c:backWall".toList, "c:plotArea".toList, "c:legend".toList, "c:plotVisOnly".toList, "c:dispBlanksAs".toList,
  "c:extLst".toList]

/-- CT_PlotArea: some chart groups, then some axes, each in any order. -/
def plotAreaOrder : List Text := ["c:layout".toList, "group".toList, "axis".toList, "c:dTable".toList, "c:spPr".toList, "c:extLst".toList]

/-- Where in that list an element is. -/
def plotAreaPlace (t : Text) : Text := if t ∈ groupTags then "group".toList else if t ∈ axisTags then "axis".toList else t

/-- CT_Legend. -/
def legendOrder : List Text := ["c:legendPos".toList, "c:legendEntry".toList, "c:layout".toList, "c:overlay".toList, "c:spPr".toList,
  "c:txPr".toList, "c:extLst".toList]

/-- CT_DTable. -/
def dataTableOrder : List Text := ["c:showHorzBorder".toList, "c:showVertBorder".toList, "c:showOutline".toList, "c:showKeys".toList,
  "c:spPr".toList, "c:txPr".toList, "c:extLst".toList]

/-- CT_AreaChart. -/
def areaOrder : List Text := ["c:grouping".toList, "c:varyColors".toList, "c:ser".toList, "c:dLbls".toList, "c:dropLines".toList,
  "c:axId".toList, "c:extLst".toList]

/-- CT_BarChart. -/
def barOrder : List Text := ["c:barDir".toList, "c:grouping".toList, "c:varyColors".toList, "c:ser".toList, "c:dLbls".toList,
  "c:gapWidth".toList, "c:overlap".toList, "c:serLines".toList, "c:axId".toList, "c:extLst".toList]

/-- CT_DoughnutChart. -/
def doughnutOrder : List Text := ["c:varyColors".toList, "c:ser".toList, "c:dLbls".toList, "c:firstSliceAng".toList, "c:holeSize".toList,
  "c:extLst".toList]

/-- CT_LineChart. -/
def lineOrder : List Text := ["c:grouping".toList, "c:varyColors".toList, "c:ser".toList, "c:dLbls".toList, "c:dropLines".toList,
  "c:hiLowLines".toList, "c:upDownBars".toList, "c:marker".toList, "c:smooth".toList, "c:axId".toList, "c:extLst".toList]

/-- CT_PieChart. -/
def pieOrder : List Text := ["c:varyColors".toList, "c:ser".toList, "c:dLbls".toList, "c:firstSliceAng".toList, "c:extLst".toList]

/-- CT_RadarChart. -/
def radarOrder : List Text := ["c:radarStyle".toList, "c:varyColors".toList, "c:ser".toList, "c:dLbls".toList, "c:axId".toList, "c:extLst".toList]

/-- CT_ScatterChart. -/
def scatterOrder : List Text := ["c:scatterStyle".toList, "c:varyColors".toList, "c:ser".toList, "c:dLbls".toList, "c:axId".toList,
  "c:extLst".toList]

/-- CT_StockChart. -/
def stockOrder : List Text := ["c:ser".toList, "c:dLbls".toList, "c:dropLines".toList, "c:hiLowLines".toList, "c:upDownBars".toList,
  "c:axId".toList, "c:extLst".toList]

/-- The order of the elements of a chart group with this element. -/
def groupOrder (t : Text) : List Text :=
  if t = "c:areaChart".toList then areaOrder
  else if t = "c:barChart".toList then barOrder
  else if t = "c:doughnutChart".toList then doughnutOrder
  else if t = "c:lineChart".toList then lineOrder
  else if t = "c:pieChart".toList then pieOrder
  else if t = "c:radarChart".toList then radarOrder
  else if t = "c:scatterChart".toList then scatterOrder
  else if t = "c:stockChart".toList then stockOrder
  else []

/-- The children of the root of a chart part, of `c:chart` and of the plot area. -/
def chartPartsOf : Node → Option (List Node × List Node × List Node)
  | .elem t _ ks =>
    if t = "c:chartSpace".toList then
      (child "c:chart".toList ks).bind fun c => (child "c:plotArea".toList c.2).map fun a => (ks, c.2, a.2)
    else none
  | .text _ => none

/-- The elements of the chart, of its plot area, chart groups and data table are in the order of the schema, and each is there at most
once, but for series, ids of axes, groups and axes. -/
structure ChartOrdered (ks chart area : List Node) : Prop where
  space : InOrder chartSpaceOrder [] (tagsOf ks)
  inner : InOrder chartOrder [] (tagsOf chart)
  plot : InOrder plotAreaOrder ["group".toList, "axis".toList] ((tagsOf area).map plotAreaPlace)
  groups : ∀ e ∈ elemsIn groupTags area, InOrder (groupOrder e.1) ["c:ser".toList, "c:axId".toList] (tagsOf e.2.2)
  table : ∀ e ∈ elemsIn ["c:dTable".toList] area, InOrder dataTableOrder [] (tagsOf e.2.2)

/-- The elements of the legend are in the order of the schema. -/
def LegendOrdered (chart : List Node) : Prop :=
  ∀ e ∈ elemsIn ["c:legend".toList] chart, InOrder legendOrder ["c:legendEntry".toList] (tagsOf e.2.2)

/-! ### Series -/

/-- CT_BarSer. -/
def barSerOrder : List Text := ["c:idx".toList, "c:order".toList, "c:tx".toList, "c:spPr".toList, "c:invertIfNegative".toList,
  "c:pictureOptions".toList, "c:dPt".toList, "c:dLbls".toList, "c:trendline".toList, "c:errBars".toList, "c:cat".toList, "c:val".toList,
  "c:shape".toList, "c:extLst".toList]

/-- CT_LineSer, also for stock charts. -/
def lineSerOrder : List Text := ["c:idx".toList, "c:order".toList, "c:tx".toList, "c:spPr".toList, "c:marker".toList, "c:dPt".toList,
  "c:dLbls".toList, "c:trendline".toList, "c:errBars".toList, "c:cat".toList, "c:val".toList, "c:smooth".toList, "c:extLst".toList]

/-- CT_AreaSer. -/
def areaSerOrder : List Text := ["c:idx".toList, "c:order".toList, "c:tx".toList, "c:spPr".toList, "c:pictureOptions".toList, "c:dPt".toList,
  "c:dLbls".toList, "c:trendline".toList, "c:errBars".toList, "c:cat".toList, "c:val".toList, "c:extLst".toList]

/-- CT_PieSer. -/
def pieSerOrder : List Text := ["c:idx".toList, "c:order".toList, "c:tx".toList, "c:spPr".toList, "c:explosion".toList, "c:dPt".toList,
  "c:dLbls".toList, "c:cat".toList, "c:val".toList, "c:extLst".toList]

/-- CT_RadarSer. -/
def radarSerOrder : List Text := ["c:idx".toList, "c:order".toList, "c:tx".toList, "c:spPr".toList, "c:marker".toList, "c:dPt".toList,
  "c:dLbls".toList, "c:cat".toList, "c:val".toList, "c:extLst".toList]

/-- CT_ScatterSer. -/
def scatterSerOrder : List Text := ["c:idx".toList, "c:order".toList, "c:tx".toList, "c:spPr".toList, "c:marker".toList, "c:dPt".toList,
  "c:dLbls".toList, "c:trendline".toList, "c:errBars".toList, "c:xVal".toList, "c:yVal".toList, "c:smooth".toList, "c:extLst".toList]

/-- The order of the elements of a series in a chart group with this element. -/
def seriesOrder (t : Text) : List Text :=
  if t = "c:areaChart".toList then areaSerOrder
  else if t = "c:barChart".toList then barSerOrder
  else if t = "c:doughnutChart".toList ∨ t = "c:pieChart".toList then pieSerOrder
  else if t = "c:lineChart".toList ∨ t = "c:stockChart".toList then lineSerOrder
  else if t = "c:radarChart".toList then radarSerOrder
  else if t = "c:scatterChart".toList then scatterSerOrder
  else []

/-- The elements of a series that may be repeated: points, and error bars in scatter charts. -/
def seriesRepeated (t : Text) : List Text :=
  if t = "c:scatterChart".toList then ["c:dPt".toList, "c:errBars".toList] else ["c:dPt".toList]

/-- The elements of each series in the plot area are in the order of the schema. -/
def SeriesOrdered (area : List Node) : Prop :=
  ∀ e ∈ elemsIn groupTags area, ∀ s ∈ elemsIn ["c:ser".toList] e.2.2, InOrder (seriesOrder e.1) (seriesRepeated e.1) (tagsOf s.2.2)

/-- The calls on a series are for charts of its type: markers in line, stock, radar and scatter charts, other fills of negative values for
bars, trendlines and error bars not in pie, doughnut and radar charts; and a series in a scatter chart has not both a format and a
marker. -/
structure SeriesSuits (k : ChartKind) (calls : List SeriesCall) : Prop where
  marker : (k.group = .line ∨ k.group = .stock ∨ k.group = .radar ∨ k.group = .scatter) ∨ lastSaid saysMarker none calls = none
  scatter : k.group = .scatter → (lastSaid saysMarker none calls = none ∧ noMarkers k = false) ∨
    (k ≠ .scatter ∧ lastSaid saysSeriesFormat {} calls = {})
  invert : (k.group = .bar ∨ k.group = .column ∨ k.group = .scatter) ∨ lastSaid saysInvert false calls = false
  trend : (k.group ≠ .pie ∧ k.group ≠ .doughnut ∧ k.group ≠ .radar) ∨ lastSaid saysTrend none calls = none
  bars : (k.group ≠ .pie ∧ k.group ≠ .doughnut ∧ k.group ≠ .radar) ∨ lastSaid saysYBars none calls = none

end Verif.Spec
