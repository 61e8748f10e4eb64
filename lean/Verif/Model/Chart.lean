import Verif.Model.Sheet
import Verif.Model.Names
import Verif.Model.Xml
/-!
Charts: the data ranges and their caches (`Worksheet::get_cache_data`, /repo/src/worksheet.rs:16901-16946,
`Workbook::prepare_chart_cache_data`, /repo/src/workbook.rs:2381-2514) and the skeleton of the chart part
(/repo/src/chart.rs): the series with their ranges, the chart groups and the axes. Formatting elements are
parameters (lists of trees); custom data labels take part in the caches but their elements are among the
parameters.
-/
namespace Verif

/-- The position part of `ChartRange`, /repo/src/chart.rs:8293-8301; it is also the `key()`, 8472-8480. -/
structure ChartRange where
  sheet : Str := []
  d : Dims := ⟨0, 0, 0, 0⟩
deriving DecidableEq, Repr

/-- `ChartRange::has_data`, /repo/src/chart.rs:8483-8485. -/
def ChartRange.hasData (r : ChartRange) : Bool := !r.sheet.isEmpty

/-- `ChartRangeCacheDataType`, /repo/src/chart.rs:8612-8617. -/
inductive CacheKind where
  | none | string | number | date
deriving DecidableEq, Repr

/-- `ChartRangeCacheData`, /repo/src/chart.rs:8593-8604; a number is held as its display text. -/
structure ChartCache where
  kind : CacheKind := .none
  data : List Str := []
deriving DecidableEq, Repr

/-- The inner match of `get_cache_data`, /repo/src/worksheet.rs:16915-16937. -/
def ChartCache.addCell (k : ChartCache) : Option Cell → ChartCache
  | some (.string s _ _) => ⟨.string, k.data ++ [s]⟩
  | some (.number n _) => ⟨if k.kind ≠ .string then .number else k.kind, k.data ++ [n]⟩
  | some (.dateTime n _) => ⟨if k.kind ≠ .string then .date else k.kind, k.data ++ [n]⟩
  | _ => ⟨k.kind, k.data ++ [[]]⟩

section
variable {Fmt : Type}

/-- One row of `get_cache_data`, /repo/src/worksheet.rs:16912-16941. -/
def Sheet.cacheRow (s : Sheet Fmt) (d : Dims) (k : ChartCache) (row : Nat) : ChartCache :=
  match s.table.get row with
  | some cols => (List.range' d.firstCol (d.lastCol + 1 - d.firstCol)).foldl (fun k c => k.addCell (cols.get c)) k
  | none => ⟨k.kind, k.data ++ [[]]⟩

/-- `get_cache_data`, /repo/src/worksheet.rs:16901-16946. -/
def Sheet.getCacheData (s : Sheet Fmt) (d : Dims) : ChartCache :=
  (List.range' d.firstRow (d.lastRow + 1 - d.firstRow)).foldl (s.cacheRow d) {}
end

/-- `ChartRange` with its cache, /repo/src/chart.rs:8293-8301. -/
structure ChartRef where
  range : ChartRange := {}
  cache : ChartCache := {}
deriving DecidableEq, Repr

/-- The parts of `ChartTitle` that decide what is written, /repo/src/chart.rs:3492-3509. `rich` are the elements of a
rich text, `rest` the elements after the text, `only` the elements of a title that is only formatted. -/
structure ChartTitle where
  name : Str := []
  ref : ChartRef := {}
  rich : List Tree := []
  rest : List Tree := []
  only : Option (List Tree) := none

/-- Error bars, /repo/src/chart.rs:5299-5331: `custom` says that the type is `Custom`, otherwise `plain` holds the
value element; `head` and `tail` are the elements before and after. -/
structure ErrorBars where
  custom : Bool := false
  plus : ChartRef := {}
  minus : ChartRef := {}
  head : List Tree := []
  plain : List Tree := []
  tail : List Tree := []

/-- A series: the fields of `ChartSeries` that decide what refers to cells. `pre` stands for the formatting
elements after the title (/repo/src/chart.rs:3793-3821 and 3884-3915), `post` for those after the values
(3849-3861, 3931-3944). -/
structure ChartSeries where
  title : ChartTitle := {}
  values : ChartRef := {}
  cats : ChartRef := {}
  labels : List ChartRef := []
  yErr : Option ErrorBars := none
  xErr : Option ErrorBars := none
  secondary : Bool := false
  pre : List Tree := []
  post : List Tree := []

/-- `chart_group_type`, /repo/src/chart.rs:2894-3132. -/
inductive ChartGroup where
  | area | bar | column | doughnut | line | pie | radar | scatter | stock
deriving DecidableEq, Repr

/-- An axis; `pre`, `mid` and `post` are the elements before the title, up to `c:crossAx` and after it. -/
structure ChartAxis where
  title : ChartTitle := {}
  isDate : Bool := false
  pre : List Tree := []
  mid : List Tree := []
  post : List Tree := []

/-- A chart without its combined chart. `head` and `tail` are the elements of the chart group before and after
the series (grouping, gap, drop lines and so on); `tail2` those after the series on the secondary axes. -/
structure ChartBody where
  group : ChartGroup := .column
  title : ChartTitle := {}
  titleHidden : Bool := false
  xAxis : ChartAxis := {}
  yAxis : ChartAxis := {}
  x2Axis : ChartAxis := {}
  y2Axis : ChartAxis := {}
  series : List ChartSeries := []
  head : List Tree := []
  tail : List Tree := []
  tail2 : List Tree := []

/-- A chart with its combined chart, /repo/src/chart.rs:836 and 1739-1743. (The combined chart of a combined chart
is never looked at, 3523-3531.) `spacePre`, `layout`, `areaTail`, `chartTail` and `spacePost` are the other elements
of the part. -/
structure Chart where
  body : ChartBody := {}
  combined : Option ChartBody := none
  axisIds : Nat × Nat := (0, 0)
  axis2Ids : Nat × Nat := (0, 0)
  spacePre : List Tree := []
  layout : List Tree := []
  areaTail : List Tree := []
  chartTail : List Tree := []
  spacePost : List Tree := []

/-! ### The caches -/

/-- The ranges of error bars, /repo/src/workbook.rs:2451-2459. -/
def ErrorBars.ranges (e : ErrorBars) : List ChartRange := [e.plus.range, e.minus.range]

/-- The ranges of a series in the order of /repo/src/workbook.rs:2442-2460. -/
def ChartSeries.ranges (s : ChartSeries) : List ChartRange :=
  [s.title.ref.range, s.values.range, s.cats.range] ++ s.labels.map (·.range) ++
    (s.yErr.map ErrorBars.ranges).getD [] ++ (s.xErr.map ErrorBars.ranges).getD []

/-- The ranges of `insert_chart_ranges_to_cache`, /repo/src/workbook.rs:2434-2461. -/
def ChartBody.ranges (c : ChartBody) : List ChartRange :=
  [c.title.ref.range, c.xAxis.title.ref.range, c.yAxis.title.ref.range] ++ c.series.flatMap (·.ranges)

/-- The chart and its combined chart, /repo/src/workbook.rs:2393-2399. -/
def Chart.ranges (c : Chart) : List ChartRange := c.body.ranges ++ (c.combined.map ChartBody.ranges).getD []

/-- The map of ranges to caches, /repo/src/workbook.rs:2385-2388, as a list of pairs. -/
abbrev CacheMap := List (ChartRange × ChartCache)

/-- `insert_to_chart_cache`, /repo/src/workbook.rs:2497-2504: a range that is there already stays one entry. -/
def insertRange (m : CacheMap) (r : ChartRange) : CacheMap :=
  if r.hasData then (if m.any (·.1 == r) then m else m ++ [(r, (⟨.none, []⟩ : ChartCache))]) else m

/-- `worksheet_from_name`, /repo/src/workbook.rs:1050-1061. -/
def sheetNamed {Fmt : Type} : List (Str × Sheet Fmt) → Str → Option (Sheet Fmt)
  | [], _ => none
  | (n, s) :: r, k => if k = n then some s else sheetNamed r k

/-- The second loop, /repo/src/workbook.rs:2404-2415; `none` is the error for an unknown worksheet. -/
def fillCaches {Fmt : Type} (sheets : List (Str × Sheet Fmt)) : CacheMap → Option CacheMap
  | [] => some []
  | (r, _) :: m =>
    match sheetNamed sheets r.sheet with
    | none => none
    | some s => (fillCaches sheets m).map ((r, s.getCacheData r.d) :: ·)

/-- `update_range_cache`, /repo/src/workbook.rs:2507-2514. -/
def ChartRef.update (m : CacheMap) (r : ChartRef) : ChartRef :=
  match m.lookup r.range with
  | some k => { r with cache := k }
  | none => r

/-- The update of a title range, /repo/src/workbook.rs:2468-2473. -/
def ChartTitle.update (m : CacheMap) (t : ChartTitle) : ChartTitle := { t with ref := t.ref.update m }

/-- The update of error bars, /repo/src/workbook.rs:2483-2491. -/
def ErrorBars.update (m : CacheMap) (e : ErrorBars) : ErrorBars :=
  { e with plus := e.plus.update m, minus := e.minus.update m }

/-- The update of a series, /repo/src/workbook.rs:2472-2492. -/
def ChartSeries.update (m : CacheMap) (s : ChartSeries) : ChartSeries :=
  { s with
    title := s.title.update m, values := s.values.update m, cats := s.cats.update m
    labels := s.labels.map (·.update m), yErr := s.yErr.map (·.update m), xErr := s.xErr.map (·.update m) }

/-- The update of the title of an axis, /repo/src/workbook.rs:2469-2470. -/
def ChartAxis.update (m : CacheMap) (a : ChartAxis) : ChartAxis := { a with title := a.title.update m }

/-- `update_chart_ranges_from_cache`, /repo/src/workbook.rs:2464-2493: the secondary axes are not there. -/
def ChartBody.update (m : CacheMap) (c : ChartBody) : ChartBody :=
  { c with
    title := c.title.update m, xAxis := c.xAxis.update m, yAxis := c.yAxis.update m
    series := c.series.map (·.update m) }

/-- A chart with its combined chart, /repo/src/workbook.rs:2420-2426. -/
def Chart.update (m : CacheMap) (c : Chart) : Chart :=
  { c with body := c.body.update m, combined := c.combined.map (·.update m) }

/-- `prepare_chart_cache_data`, /repo/src/workbook.rs:2381-2431, on the charts of all worksheets in order; `none` is
the error for an unknown worksheet. (The order of the map is not modelled: it decides only which of several unknown
names the message has.) -/
def prepareCaches {Fmt : Type} (sheets : List (Str × Sheet Fmt)) (charts : List Chart) : Option (List Chart) :=
  (fillCaches sheets ((charts.flatMap (·.ranges)).foldl insertRange [])).map fun m => charts.map (·.update m)

/-! ### Writing -/

/-- `chart_range_abs`, /repo/src/utility.rs:544-560. A panic of `quote_sheet_name` (see `Model/Names.lean`) is the
empty text here; the theorems assume that there is none. -/
def chartRangeAbs (U : Unicode) (r : ChartRange) : Str :=
  match quoteSheetName U r.sheet with
  | none => []
  | some q => q ++ '!' :: cellRangeAbs r.d.firstRow r.d.firstCol r.d.lastRow r.d.lastCol

/-- `write_pt`, /repo/src/chart.rs:4170-4176. -/
def ptTree (i : Nat) (v : Str) : Tree :=
  .node "c:pt".toList [("idx".toList, showNat i)] [.data "c:v".toList v []]

/-- `write_pt_count`, /repo/src/chart.rs:4163-4167. -/
def ptCountTree (n : Nat) : Tree := .empty "c:ptCount".toList [("val".toList, showNat n)]

/-- The loop of `write_num_cache`, /repo/src/chart.rs:4122-4132; `parses` is `parse::<f64>().is_ok()`. -/
def numPts (parses : Str → Bool) : Nat → List Str → List Tree
  | _, [] => []
  | i, v :: vs =>
    if v.isEmpty then numPts parses (i + 1) vs
    else ptTree i (if parses v then v else "0".toList) :: numPts parses (i + 1) vs

/-- The loop of `write_str_cache`, /repo/src/chart.rs:4145-4147. -/
def strPts : Nat → List Str → List Tree
  | _, [] => []
  | i, v :: vs => ptTree i v :: strPts (i + 1) vs

/-- `write_num_cache`, /repo/src/chart.rs:4108-4135. -/
def numCacheTree (parses : Str → Bool) (k : ChartCache) : Tree :=
  .node "c:numCache".toList []
    (.data "c:formatCode".toList (if k.kind = .date then "dd/mm/yyyy".toList else "General".toList) [] ::
      ptCountTree k.data.length :: numPts parses 0 k.data)

/-- `write_str_cache`, /repo/src/chart.rs:4138-4150. -/
def strCacheTree (k : ChartCache) : Tree :=
  .node "c:strCache".toList [] (ptCountTree k.data.length :: strPts 0 k.data)

/-- `write_num_ref`, /repo/src/chart.rs:4078-4090. -/
def numRefTree (U : Unicode) (parses : Str → Bool) (r : ChartRef) : Tree :=
  .node "c:numRef".toList []
    (.data "c:f".toList (chartRangeAbs U r.range) [] ::
      (if r.cache.data.isEmpty then [] else [numCacheTree parses r.cache]))

/-- `write_str_ref`, /repo/src/chart.rs:4093-4105. -/
def strRefTree (U : Unicode) (r : ChartRef) : Tree :=
  .node "c:strRef".toList []
    (.data "c:f".toList (chartRangeAbs U r.range) [] ::
      (if r.cache.data.isEmpty then [] else [strCacheTree r.cache]))

/-- `write_cache_ref`, /repo/src/chart.rs:4069-4075. -/
def cacheRefTree (U : Unicode) (parses : Str → Bool) (numOnly : Bool) (r : ChartRef) : Tree :=
  if r.cache.kind = .string && !numOnly then strRefTree U r else numRefTree U parses r

/-- `write_tx_formula`, /repo/src/chart.rs:6248-6255. -/
def txFormulaTree (U : Unicode) (t : ChartTitle) : Tree := .node "c:tx".toList [] [strRefTree U t.ref]

/-- `write_series_title`, /repo/src/chart.rs:3503-3509. -/
def seriesTitleTrees (U : Unicode) (t : ChartTitle) : List Tree :=
  if !t.name.isEmpty then [.node "c:tx".toList [] [.data "c:v".toList t.name []]]
  else if t.ref.range.hasData then [txFormulaTree U t]
  else []

/-- `write_chart_title`, /repo/src/chart.rs:3492-3500 with 6222-6296. -/
def chartTitleTrees (U : Unicode) (t : ChartTitle) : List Tree :=
  if !t.name.isEmpty then
    [.node "c:title".toList [] (.node "c:tx".toList [] [.node "c:rich".toList [] t.rich] :: t.rest)]
  else if t.ref.range.hasData then [.node "c:title".toList [] (txFormulaTree U t :: t.rest)]
  else match t.only with
    | some ts => [.node "c:title".toList [] ts]
    | none => []

/-- `write_error_bar`, /repo/src/chart.rs:5299-5331 and 5370-5378. -/
def errBarsTree (U : Unicode) (parses : Str → Bool) (e : ErrorBars) : Tree :=
  .node "c:errBars".toList []
    (e.head ++
      (if e.custom then
        [.node "c:plus".toList [] [cacheRefTree U parses true e.plus],
         .node "c:minus".toList [] [cacheRefTree U parses true e.minus]]
       else e.plain) ++ e.tail)

/-- The error bars of a series, /repo/src/chart.rs:3823-3836 and 3917-3925. -/
def errBarsTrees (U : Unicode) (parses : Str → Bool) (g : ChartGroup) (s : ChartSeries) : List Tree :=
  match g with
  | .bar => s.xErr.toList.map (errBarsTree U parses)
  | .scatter => s.xErr.toList.map (errBarsTree U parses) ++ s.yErr.toList.map (errBarsTree U parses)
  | _ => s.yErr.toList.map (errBarsTree U parses)

/-- The categories and values of a series: `write_cat` if there are categories, `write_val`
(/repo/src/chart.rs:3838-3847); in a scatter chart `write_x_val` and `write_y_val` (3927-3929). -/
def dataTrees (U : Unicode) (parses : Str → Bool) (g : ChartGroup) (s : ChartSeries) : List Tree :=
  match g with
  | .scatter =>
    [.node "c:xVal".toList [] [cacheRefTree U parses false s.cats],
     .node "c:yVal".toList [] [cacheRefTree U parses true s.values]]
  | _ =>
    (if s.cats.range.hasData then [.node "c:cat".toList [] [cacheRefTree U parses false s.cats]] else []) ++
    [.node "c:val".toList [] [cacheRefTree U parses true s.values]]

/-- The body of the loops of `write_series` and `write_scatter_series`, /repo/src/chart.rs:3770-3866 and 3871-3949. -/
def seriesTree (U : Unicode) (parses : Str → Bool) (g : ChartGroup) (i : Nat) (s : ChartSeries) : Tree :=
  .node "c:ser".toList []
    (.empty "c:idx".toList [("val".toList, showNat i)] :: .empty "c:order".toList [("val".toList, showNat i)] ::
      (seriesTitleTrees U s.title ++ s.pre ++ errBarsTrees U parses g s ++ dataTrees U parses g s ++ s.post))

/-- The loop of `write_series`, with `series_index`, /repo/src/chart.rs:3769-3867. -/
def seriesTrees (U : Unicode) (parses : Str → Bool) (g : ChartGroup) : Nat → List ChartSeries → List Tree
  | _, [] => []
  | i, s :: ss => seriesTree U parses g i s :: seriesTrees U parses g (i + 1) ss

/-- `get_series`, /repo/src/chart.rs:3756-3766. -/
def getSeries (c : ChartBody) (primary : Bool) : List ChartSeries := c.series.filter fun s => s.secondary != primary

/-- The element of a chart group, /repo/src/chart.rs:3135-3390. -/
def ChartGroup.tag : ChartGroup → Str
  | .area => "c:areaChart".toList
  | .bar => "c:barChart".toList
  | .column => "c:barChart".toList
  | .doughnut => "c:doughnutChart".toList
  | .line => "c:lineChart".toList
  | .pie => "c:pieChart".toList
  | .radar => "c:radarChart".toList
  | .scatter => "c:scatterChart".toList
  | .stock => "c:stockChart".toList

/-- Chart groups without axes. -/
def ChartGroup.axisFree (g : ChartGroup) : Bool := g = .pie || g = .doughnut

/-- `write_ax_id`, /repo/src/chart.rs:4190-4194. -/
def axIdTree (i : Nat) : Tree := .empty "c:axId".toList [("val".toList, showNat i)]

/-- `write_area_chart` and the others, /repo/src/chart.rs:3135-3390, with `write_ax_ids` (4179-4187). -/
def groupTrees (U : Unicode) (parses : Str → Bool) (ids : Nat × Nat) (c : ChartBody) (i : Nat)
    (series : List ChartSeries) : List Tree :=
  if series.isEmpty then []
  else [.node c.group.tag []
    (c.head ++ seriesTrees U parses c.group i series ++ c.tail ++
      (if c.group.axisFree then [] else [axIdTree ids.1, axIdTree ids.2]))]

/-- The chart for the series on the secondary axes: gap and overlap may have changed (/repo/src/chart.rs:3775-3783), and there are no
high-low lines in a stock chart (3376-3379). -/
def ChartBody.second (c : ChartBody) : ChartBody := { c with tail := c.tail2 }

/-- `write_chart_type`, /repo/src/chart.rs:3623-3674; `series_index` goes on from the primary to the secondary
series. -/
def chartTypeTrees (U : Unicode) (parses : Str → Bool) (ids ids2 : Nat × Nat) (c : ChartBody) (i : Nat) : List Tree :=
  groupTrees U parses ids c i (getSeries c true) ++
    groupTrees U parses ids2 c.second (i + (getSeries c true).length) (getSeries c false)

/-- The common form of `write_cat_ax`, `write_date_ax`, `write_val_ax` and `write_cat_val_ax`,
/repo/src/chart.rs:4201-4590: the id, the title and `c:crossAx`. -/
def axisTree (U : Unicode) (tag : Str) (id cross : Nat) (a : ChartAxis) : Tree :=
  .node tag []
    (axIdTree id :: (a.pre ++ chartTitleTrees U a.title ++ a.mid ++
      .empty "c:crossAx".toList [("val".toList, showNat cross)] :: a.post))

/-- `write_cat_ax`, /repo/src/chart.rs:4201-4293. -/
def catAxTree (U : Unicode) (x : ChartAxis) (ids : Nat × Nat) : Tree := axisTree U "c:catAx".toList ids.1 ids.2 x

/-- `write_date_ax`, /repo/src/chart.rs:4300-4410. -/
def dateAxTree (U : Unicode) (x : ChartAxis) (ids : Nat × Nat) : Tree := axisTree U "c:dateAx".toList ids.1 ids.2 x

/-- `write_val_ax`, /repo/src/chart.rs:4416-4499. -/
def valAxTree (U : Unicode) (y : ChartAxis) (ids : Nat × Nat) : Tree := axisTree U "c:valAx".toList ids.2 ids.1 y

/-- `write_cat_val_ax`, /repo/src/chart.rs:4506-4590. -/
def catValAxTree (U : Unicode) (x : ChartAxis) (ids : Nat × Nat) : Tree := axisTree U "c:valAx".toList ids.1 ids.2 x

/-- The primary axes, /repo/src/chart.rs:3533-3563. -/
def primaryAxes (U : Unicode) (c : ChartBody) (ids : Nat × Nat) : List Tree :=
  let p := if c.group = .bar then (c.yAxis, c.xAxis) else (c.xAxis, c.yAxis)
  match c.group with
  | .pie | .doughnut => []
  | .scatter => [catValAxTree U p.1 ids, valAxTree U p.2 ids]
  | _ => [if c.xAxis.isDate then dateAxTree U p.1 ids else catAxTree U p.1 ids, valAxTree U p.2 ids]

/-- `check_for_secondary_axis`, /repo/src/chart.rs:2872-2887. -/
def Chart.hasSecondary (c : Chart) : Bool :=
  ((c.combined.map (·.series)).getD []).any (·.secondary) || c.body.series.any (·.secondary)

/-- The secondary axes, /repo/src/chart.rs:3565-3609. -/
def secondaryAxes (U : Unicode) (c : Chart) : List Tree :=
  if c.hasSecondary then
    let g := (c.combined.map (·.group)).getD c.body.group
    let p := if g = .bar then (c.body.y2Axis, c.body.x2Axis) else (c.body.x2Axis, c.body.y2Axis)
    match g with
    | .pie | .doughnut => []
    | .scatter =>
      if c.combined.isSome then [valAxTree U p.2 c.axis2Ids, catValAxTree U p.1 c.axis2Ids]
      else [catValAxTree U p.1 c.axis2Ids, valAxTree U p.2 c.axis2Ids]
    | _ => [valAxTree U p.2 c.axis2Ids,
        if c.body.xAxis.isDate then dateAxTree U p.1 c.axis2Ids else catAxTree U p.1 c.axis2Ids]
  else []

/-- `write_plot_area`, /repo/src/chart.rs:3512-3620. -/
def plotAreaTree (U : Unicode) (parses : Str → Bool) (c : Chart) : Tree :=
  .node "c:plotArea".toList []
    (c.layout ++ chartTypeTrees U parses c.axisIds c.axis2Ids c.body 0 ++
      (match c.combined with
        | some b => chartTypeTrees U parses c.axisIds c.axis2Ids b c.body.series.length
        | none => []) ++
      primaryAxes U c.body c.axisIds ++ secondaryAxes U c ++ c.areaTail)

/-- `write_chart`, /repo/src/chart.rs:3459-3489. -/
def chartTree (U : Unicode) (parses : Str → Bool) (c : Chart) : Tree :=
  .node "c:chart".toList []
    ((if c.body.titleHidden then [.empty "c:autoTitleDeleted".toList [("val".toList, "1".toList)]]
      else chartTitleTrees U c.body.title) ++ plotAreaTree U parses c :: c.chartTail)

/-- `write_chart_space`, /repo/src/chart.rs:3432-3449. -/
def chartSpaceAttrs : Attrs :=
  [("xmlns:c".toList, "http://schemas.openxmlformats.org/drawingml/2006/chart".toList),
   ("xmlns:a".toList, "http://schemas.openxmlformats.org/drawingml/2006/main".toList),
   ("xmlns:r".toList, "http://schemas.openxmlformats.org/officeDocument/2006/relationships".toList)]

/-- `assemble_xml_file`, /repo/src/chart.rs:3397-3429. -/
def chartSpaceTree (U : Unicode) (parses : Str → Bool) (c : Chart) : Tree :=
  .node "c:chartSpace".toList chartSpaceAttrs (c.spacePre ++ chartTree U parses c :: c.spacePost)

/-- `add_axis_ids`, /repo/src/chart.rs:2817-2830; `u32` overflow (a chart number above 424,496) is not modelled. -/
def Chart.addAxisIds (c : Chart) (chartId : Nat) : Chart :=
  if c.axisIds.1 ≠ 0 then c
  else
    let i := (5000 + chartId) * 10000 + 1
    { c with
      axisIds := (i, i + 1)
      axis2Ids := if c.combined.isNone then (i + 2, i + 3) else (i + 10000000, i + 10000001) }

end Verif
