import Verif.Model.ChartFmt
/-!
The formatting of the series of a chart, /repo/src/chart.rs: markers, points, data labels, trendlines, error bars. The functions give the
parameters `pre`, `post` and those of error bars of the skeleton in `Model/Chart.lean`.

Simplifications. Numbers (`f64`) are kept as the texts that are written for them, with their sign. Custom data labels with the text of
cells are not modelled here (their caches are in `Model/Chart.lean`). The values that setters of lines, fonts and fills refuse are kept out
as in `Model/ChartFmt.lean`.
-/
namespace Verif

/-- `ChartType`, /repo/src/chart.rs:8630-8757. -/
inductive ChartKind where
  | area | areaStacked | areaPercent | bar | barStacked | barPercent | column | columnStacked | columnPercent | doughnut
  | line | lineStacked | linePercent | pie | radar | radarMarkers | radarFilled | scatter | scatterStraight | scatterStraightMarkers
  | scatterSmooth | scatterSmoothMarkers | stock
deriving DecidableEq, Repr

/-- The chart group of a type, /repo/src/chart.rs:986-1018. -/
def ChartKind.group : ChartKind → ChartGroup
  | .area | .areaStacked | .areaPercent => .area
  | .bar | .barStacked | .barPercent => .bar
  | .column | .columnStacked | .columnPercent => .column
  | .doughnut => .doughnut
  | .line | .lineStacked | .linePercent => .line
  | .pie => .pie
  | .radar | .radarMarkers | .radarFilled => .radar
  | .scatter | .scatterStraight | .scatterStraightMarkers | .scatterSmooth | .scatterSmoothMarkers => .scatter
  | .stock => .stock

/-- `ChartMarkerType`, /repo/src/chart.rs:9334-9379. -/
inductive MarkerShape where
  | square | diamond | triangle | x | star | shortDash | longDash | circle | plus
deriving DecidableEq, Repr

/-- Its `Display`, /repo/src/chart.rs:9381-9395. -/
def MarkerShape.text : MarkerShape → Str
  | .x => "x".toList
  | .star => "star".toList
  | .circle => "circle".toList
  | .square => "square".toList
  | .diamond => "diamond".toList
  | .longDash => "dash".toList
  | .plus => "plus".toList
  | .triangle => "triangle".toList
  | .shortDash => "dot".toList

/-- `ChartMarker`, /repo/src/chart.rs:9137-9157. -/
structure CMarker where
  automatic : Bool := false
  none : Bool := false
  size : Nat := 0
  shape : Option MarkerShape := .none
  format : CFormat := {}
deriving DecidableEq, Repr

/-- The methods of `ChartMarker`. -/
inductive MarkerCall where
  | automatic
  | none
  | type (t : MarkerShape)
  | size (n : Nat)
  | format (f : CFormat)
deriving DecidableEq, Repr

/-- The setters, /repo/src/chart.rs:9207-9329. -/
def CMarker.exec (m : CMarker) : MarkerCall → CMarker
  | .automatic => { m with automatic := true }
  | .none => { m with none := true }
  | .type t => { m with shape := some t, automatic := false }
  | .size n => if 2 ≤ n ∧ n ≤ 72 then { m with size := n, automatic := false } else m
  | .format f => { m with format := f }

/-- A new marker with some calls. -/
def newMarker (calls : List MarkerCall) : CMarker := calls.foldl CMarker.exec {}

/-- The attributes of `write_symbol`, /repo/src/chart.rs:5597-5607. -/
def CMarker.symbolAttrs (m : CMarker) : Attrs :=
  match m.shape with
  | some s => [("val".toList, s.text)]
  | .none => if m.none then [("val".toList, "none".toList)] else []

/-- The sections of `write_marker`, /repo/src/chart.rs:4987-5004. -/
def CMarker.secs (m : CMarker) : List (Str × List Tree) :=
  [("c:symbol".toList, [.empty "c:symbol".toList m.symbolAttrs]),
   ("c:size".toList, if m.size ≠ 0 then [valText "c:size".toList (showNat m.size)] else []),
   ("c:spPr".toList, m.format.trees)]

/-- The marker of a series, /repo/src/chart.rs:3796-3801, 3884-3889. -/
def markerTrees (m : Option CMarker) : List Tree :=
  match m with
  | some m => if m.automatic then [] else [.node "c:marker".toList [] (secTrees m.secs)]
  | none => []

/-- `ChartDataLabelPosition`, /repo/src/chart.rs:10309-10339. -/
inductive LabelSpot where
  | default | center | right | left | above | below | insideBase | insideEnd | outsideEnd | bestFit
deriving DecidableEq, Repr

/-- Its `Display`, /repo/src/chart.rs:10341-10356. -/
def LabelSpot.text : LabelSpot → Str
  | .left => "l".toList
  | .right => "r".toList
  | .above => "t".toList
  | .below => "b".toList
  | .center => "ctr".toList
  | .default => []
  | .bestFit => "bestFit".toList
  | .insideEnd => "inEnd".toList
  | .insideBase => "inBase".toList
  | .outsideEnd => "outEnd".toList

/-- `default_label_position`, /repo/src/chart.rs:2926, 2967, 3002, 3011, 3045, 3054, 3072, 3101, 3129. -/
def ChartGroup.labelSpot : ChartGroup → LabelSpot
  | .area => .center
  | .bar => .outsideEnd
  | .column => .outsideEnd
  | .doughnut => .bestFit
  | .line => .right
  | .pie => .bestFit
  | .radar => .center
  | .scatter => .right
  | .stock => .right

/-- `ChartDataLabel`, /repo/src/chart.rs:9460-9502: `text` is the text given with `set_value` (`title.name`, with
`ignore_rich_para` as `plainText`). `is_custom` is a parameter of the writer. -/
structure CLabel where
  format : CFormat := {}
  value : Bool := false
  category : Bool := false
  series : Bool := false
  leader : Bool := false
  key : Bool := false
  percent : Bool := false
  spot : LabelSpot := .default
  separator : Char := ','
  text : Str := []
  plainText : Bool := false
  hidden : Bool := false
  font : Option CFont := none
  numFormat : Str := []
deriving DecidableEq, Repr

/-- The methods of `ChartDataLabel`; `text` is `set_value` with a text. -/
inductive LabelCall where
  | value | category | series | leader | key | percent | hidden
  | format (f : CFormat)
  | spot (p : LabelSpot)
  | separator (c : Char)
  | text (s : Str)
  | font (f : CFont)
  | numFormat (s : Str)
deriving DecidableEq, Repr

/-- The setters, /repo/src/chart.rs:9556-10268. -/
def CLabel.exec (l : CLabel) : LabelCall → CLabel
  | .value => { l with value := true }
  | .category => { l with category := true }
  | .series => { l with series := true }
  | .leader => { l with leader := true }
  | .key => { l with key := true }
  | .percent => { l with percent := true }
  | .hidden => { l with hidden := true }
  | .format f => { l with format := f, plainText := false }
  | .spot p => { l with spot := p }
  | .separator c => if c = ';' ∨ c = '.' ∨ c = ' ' ∨ c = '\n' then { l with separator := c } else l
  | .text s => { l with text := s, plainText := true, value := true }
  | .font f => { l with font := some { f with hasBaseline := f.hasBaseline || f.italic } }
  | .numFormat s => { l with numFormat := s }

/-- A new data label with some calls. -/
def newLabel (calls : List LabelCall) : CLabel := calls.foldl CLabel.exec {}

/-- `write_show_leader_lines_2015`, /repo/src/chart.rs:5558-5573. -/
def leaderExt : Tree :=
  .node "c:extLst".toList []
    [.node "c:ext".toList
      [("uri".toList, "{CE6537A1-D6FC-4f65-9D91-7224C49458BB}".toList),
       ("xmlns:c15".toList, "http://schemas.microsoft.com/office/drawing/2012/chart".toList)]
      [valOne "c15:showLeaderLines".toList]]

/-- An element that is there if something is on. -/
def oneIf (t : Str) (b : Bool) : List Tree := if b then [valOne t] else []

/-- `write_data_label`, /repo/src/chart.rs:5099-5166. -/
def CLabel.secs (l : CLabel) (g : ChartGroup) (custom : Bool) : List (Str × List Tree) :=
  [("c:numFmt".toList, if l.numFormat ≠ [] then [codeTree l.numFormat false] else []),
   ("c:spPr".toList, l.format.trees),
   ("c:txPr".toList, (l.font.map (·.txPrTree false)).toList),
   ("c:dLblPos".toList, if l.spot ≠ .default ∧ l.spot ≠ g.labelSpot then [valText "c:dLblPos".toList l.spot.text] else []),
   ("c:showLegendKey".toList, oneIf "c:showLegendKey".toList l.key),
   ("c:showVal".toList, oneIf "c:showVal".toList (l.value || (!custom && !l.category && !l.percent))),
   ("c:showCatName".toList, oneIf "c:showCatName".toList l.category),
   ("c:showSerName".toList, oneIf "c:showSerName".toList l.series),
   ("c:showPercent".toList, oneIf "c:showPercent".toList l.percent),
   ("c:separator".toList, if l.separator ≠ ',' then [.data "c:separator".toList [l.separator, ' '] []] else []),
   ("c:showLeaderLines".toList,
     if l.leader = true ∧ (g = .pie ∨ g = .doughnut) then [valOne "c:showLeaderLines".toList] else []),
   ("c:extLst".toList, if l.leader = true ∧ ¬ (g = .pie ∨ g = .doughnut) then [leaderExt] else [])]

/-- The font of the text of a custom label, /repo/src/chart.rs:5060-5076 with 9028-9038 (`set_font`): the baseline is not written. -/
def CLabel.titleFont (l : CLabel) : CFont :=
  match l.font with
  | some f => { f.forTitle with hasBaseline := false }
  | none => {}

/-- `write_tx_rich` for the text of a custom label, /repo/src/chart.rs:6298-6345. -/
def CLabel.txTree (l : CLabel) : Tree :=
  .node "c:tx".toList []
    [.node "c:rich".toList [] (CTitle.richTrees { name := l.text, font := l.titleFont, ignorePara := l.plainText })]

/-- The font that is left for the label, /repo/src/chart.rs:5060-5073. -/
def CLabel.leftFont (l : CLabel) : Option CFont :=
  if l.text ≠ [] then none else l.font.map fun f => { f with hasBaseline := false }

/-- The elements of a custom label that is not hidden, /repo/src/chart.rs:5046-5092. -/
def CLabel.customSecs (l : CLabel) (g : ChartGroup) : List (Str × List Tree) :=
  [("c:layout".toList, if l.font.isNone ∨ l.text ≠ [] then [CLayout.tree {}] else []),
   ("c:tx".toList, if l.text ≠ [] then [l.txTree] else [])] ++ ({ l with font := l.leftFont } : CLabel).secs g true

/-- The empty format "for Excel compatibility", /repo/src/chart.rs:5046-5053. -/
def CLabel.emptyFormat (l : CLabel) : List Tree :=
  match l.font with
  | some f => if l.format.hasFormatting = false ∧ f.color.isAutoOrDefault = true then [.empty "c:spPr".toList []] else []
  | none => []

/-- `write_custom_data_labels`, /repo/src/chart.rs:5039-5095, for one label. -/
def CLabel.customTree (l : CLabel) (g : ChartGroup) (i : Nat) : Tree :=
  .node "c:dLbl".toList []
    (valText "c:idx".toList (showNat i) ::
      (if l.hidden then [valOne "c:delete".toList] else l.emptyFormat ++ secTrees (l.customSecs g)))

/-- `write_custom_data_labels`, /repo/src/chart.rs:5026-5097; `is_default` (10283-10288) compares with a new label. -/
def customTrees (g : ChartGroup) (maxPoints : Nat) (ls : List CLabel) : List Tree :=
  ((ls.zipIdx).filter fun p => decide (p.2 < maxPoints) && decide (p.1 ≠ {})).map fun p => p.1.customTree g p.2

/-- `write_data_labels`, /repo/src/chart.rs:5007-5023. -/
def labelTrees (g : ChartGroup) (maxPoints : Nat) (l : Option CLabel) (custom : List CLabel) : List Tree :=
  match l with
  | some l => [.node "c:dLbls".toList [] (customTrees g maxPoints custom ++ secTrees (l.secs g false))]
  | none => []

/-- `write_d_pt`, /repo/src/chart.rs:3963-3979, for one point. -/
def pointTree (g : ChartGroup) (i : Nat) (f : CFormat) : Tree :=
  .node "c:dPt".toList []
    (valText "c:idx".toList (showNat i) ::
      (if g = .scatter ∨ g = .line then [.node "c:marker".toList [] f.trees] else f.trees))

/-- `write_d_pt`, /repo/src/chart.rs:3953-3981. -/
def pointTrees (g : ChartGroup) (maxPoints : Nat) (ps : List CFormat) : List Tree :=
  ((ps.zipIdx).filter fun p => decide (p.2 < maxPoints) && p.1.hasFormatting).map fun p => pointTree g p.2 p.1

/-- `ChartTrendlineType`, /repo/src/chart.rs:16235-16258. -/
inductive TrendKind where
  | none | exponential | linear | logarithmic | power
  | polynomial (order : Nat)
  | movingAverage (period : Nat)
deriving DecidableEq, Repr

/-- Its `Display`, /repo/src/chart.rs:16260-16272. -/
def TrendKind.text : TrendKind → Str
  | .none => "none".toList
  | .power => "power".toList
  | .linear => "linear".toList
  | .exponential => "exp".toList
  | .logarithmic => "log".toList
  | .polynomial _ => "poly".toList
  | .movingAverage _ => "movingAvg".toList

/-- `ChartTrendline`, /repo/src/chart.rs:15694-15725. A period is the text of a number and whether it is above zero. -/
structure CTrend where
  name : Str := []
  kind : TrendKind := .none
  format : CFormat := {}
  labelFormat : CFormat := {}
  labelFont : Option CFont := Option.none
  forward : Option Str := Option.none
  backward : Option Str := Option.none
  equation : Bool := false
  rSquared : Bool := false
  intercept : Option Str := Option.none
  deleted : Bool := false
deriving DecidableEq, Repr

/-- The methods of `ChartTrendline`; periods with whether they are above zero. -/
inductive TrendCall where
  | type (k : TrendKind)
  | format (f : CFormat)
  | labelFormat (f : CFormat)
  | labelFont (f : CFont)
  | name (s : Str)
  | forward (positive : Bool) (v : Str)
  | backward (positive : Bool) (v : Str)
  | equation (b : Bool)
  | rSquared (b : Bool)
  | intercept (v : Str)
  | deleted (b : Bool)
deriving DecidableEq, Repr

/-- The setters, /repo/src/chart.rs:15790-16221 (a period that is not above zero is never written, 5192-5200). -/
def CTrend.exec (t : CTrend) : TrendCall → CTrend
  | .type k => { t with kind := k }
  | .format f => { t with format := f }
  | .labelFormat f => { t with labelFormat := f }
  | .labelFont f => { t with labelFont := some { f with hasBaseline := true } }
  | .name s => { t with name := s }
  | .forward p v => { t with forward := if p then some v else none }
  | .backward p v => { t with backward := if p then some v else none }
  | .equation b => { t with equation := b }
  | .rSquared b => { t with rSquared := b }
  | .intercept v => { t with intercept := some v }
  | .deleted b => { t with deleted := b }

/-- A new trendline with some calls. -/
def newTrend (calls : List TrendCall) : CTrend := calls.foldl CTrend.exec {}

/-- `write_trendline_label`, /repo/src/chart.rs:5264-5282. -/
def CTrend.labelSecs (t : CTrend) : List (Str × List Tree) :=
  [("c:layout".toList, [CLayout.tree {}]),
   ("c:numFmt".toList, [codeTree "General".toList false]),
   ("c:spPr".toList, t.labelFormat.trees),
   ("c:txPr".toList, (t.labelFont.map (·.txPrTree false)).toList)]

/-- `write_trendline`, /repo/src/chart.rs:5169-5218. -/
def CTrend.secs (t : CTrend) : List (Str × List Tree) :=
  [("c:name".toList, if t.name ≠ [] then [.data "c:name".toList t.name []] else []),
   ("c:spPr".toList, t.format.trees),
   ("c:trendlineType".toList, [valText "c:trendlineType".toList t.kind.text]),
   ("c:order".toList, match t.kind with | .polynomial n => [valText "c:order".toList (showNat n)] | _ => []),
   ("c:period".toList, match t.kind with | .movingAverage n => [valText "c:period".toList (showNat n)] | _ => []),
   ("c:forward".toList, optVal "c:forward".toList t.forward),
   ("c:backward".toList, optVal "c:backward".toList t.backward),
   ("c:intercept".toList, optVal "c:intercept".toList t.intercept),
   ("c:dispRSqr".toList, oneIf "c:dispRSqr".toList t.rSquared),
   ("c:dispEq".toList, oneIf "c:dispEq".toList t.equation),
   ("c:trendlineLbl".toList, if t.equation then [.node "c:trendlineLbl".toList [] (secTrees t.labelSecs)] else [])]

/-- The trendline of a series, /repo/src/chart.rs:3818-3821, 3913-3915. -/
def CTrend.trees (t : CTrend) : List Tree :=
  if t.kind ≠ .none then [.node "c:trendline".toList [] (secTrees t.secs)] else []

/-- `ChartErrorBarsType`, /repo/src/chart.rs:16945-16968; numbers as texts. -/
inductive ErrKind where
  | fixed (v : Str)
  | percentage (v : Str)
  | deviation (v : Str)
  | standardError
  | custom (plus minus : ChartRange)
deriving DecidableEq, Repr

/-- Its `Display`, /repo/src/chart.rs:16970-16980. -/
def ErrKind.text : ErrKind → Str
  | .custom _ _ => "cust".toList
  | .standardError => "stdErr".toList
  | .fixed _ => "fixedVal".toList
  | .percentage _ => "percentage".toList
  | .deviation _ => "stdDev".toList

/-- `ChartErrorBarsDirection`, /repo/src/chart.rs:16988-16997. -/
inductive ErrDirection where
  | both | minus | plus
deriving DecidableEq, Repr

/-- Its `Display`, /repo/src/chart.rs:16999-17007. -/
def ErrDirection.text : ErrDirection → Str
  | .both => "both".toList
  | .minus => "minus".toList
  | .plus => "plus".toList

/-- `ChartErrorBars`, /repo/src/chart.rs:16812-16839. -/
structure CErrBars where
  endCap : Bool := true
  kind : ErrKind := .standardError
  direction : ErrDirection := .both
  format : CFormat := {}
  plus : ChartRange := {}
  minus : ChartRange := {}
deriving DecidableEq, Repr

/-- The methods of `ChartErrorBars`; `type` with whether the number is one that is refused. -/
inductive ErrCall where
  | type (refused : Bool) (k : ErrKind)
  | direction (d : ErrDirection)
  | endCap (b : Bool)
  | format (f : CFormat)
deriving DecidableEq, Repr

/-- The setters, /repo/src/chart.rs:16853-16932. (The ranges of custom error bars are parsed when they are given.) -/
def CErrBars.exec (e : CErrBars) : ErrCall → CErrBars
  | .type refused k =>
    match k with
    | .custom p m => { e with plus := p, minus := m, kind := k }
    | .standardError => { e with kind := k }
    | _ => if refused then e else { e with kind := k }
  | .direction d => { e with direction := d }
  | .endCap b => { e with endCap := b }
  | .format f => { e with format := f }

/-- New error bars with some calls. -/
def newErrBars (calls : List ErrCall) : CErrBars := calls.foldl CErrBars.exec {}

/-- Error bars as parameters of the skeleton: `write_error_bar`, /repo/src/chart.rs:5299-5331; `axis` is `x`, `y` or nothing. -/
def CErrBars.toErr (e : CErrBars) (axis : Str) : ErrorBars where
  custom := match e.kind with | .custom _ _ => true | _ => false
  plus := { range := e.plus }
  minus := { range := e.minus }
  head := textVal "c:errDir".toList axis ++ [valText "c:errBarType".toList e.direction.text, valText "c:errValType".toList e.kind.text] ++
    oneIf "c:noEndCap".toList (!e.endCap)
  plain := match e.kind with
    | .fixed v | .percentage v | .deviation v => [valText "c:val".toList v]
    | _ => []
  tail := e.format.trees

/-- `ChartSeries`, /repo/src/chart.rs:6672-6803: the fields that are not in the skeleton. -/
structure SeriesOpts where
  format : CFormat := {}
  marker : Option CMarker := none
  label : Option CLabel := none
  customLabels : List CLabel := []
  points : List CFormat := []
  gap : Nat := 150
  overlap : Option Int := none
  invert : Bool := false
  invertColor : Color := .default
  trend : CTrend := {}
  xErr : Option CErrBars := none
  yErr : Option CErrBars := none
  deleted : Bool := false
  smooth : Option Bool := none
deriving DecidableEq, Repr

/-- The methods of `ChartSeries` for formatting. -/
inductive SeriesCall where
  | format (f : CFormat)
  | marker (m : CMarker)
  | label (l : CLabel)
  | customLabels (ls : List CLabel)
  | points (fs : List CFormat)
  | pointColors (cs : List Color)
  | trend (t : CTrend)
  | yErr (e : CErrBars)
  | xErr (e : CErrBars)
  | overlap (n : Int)
  | gap (n : Nat)
  | smooth (b : Bool)
  | invert
  | invertColor (c : Color)
  | deleted (b : Bool)
deriving DecidableEq, Repr

/-- The setters, /repo/src/chart.rs:7158-8267 (`set_solid_fill` of an invalid colour is not modelled: the colours of points are valid). -/
def SeriesOpts.exec (s : SeriesOpts) : SeriesCall → SeriesOpts
  | .format f => { s with format := f }
  | .marker m => { s with marker := some m }
  | .label l => { s with label := some l }
  | .customLabels ls => { s with customLabels := ls, label := some (s.label.getD {}) }
  | .points fs => { s with points := fs }
  | .pointColors cs => { s with points := cs.map fun c => { solid := some { color := c, transparency := 0 } } }
  | .trend t => { s with trend := t }
  | .yErr e => { s with yErr := some e }
  | .xErr e => { s with xErr := some e }
  | .overlap n => if -100 ≤ n ∧ n ≤ 100 then { s with overlap := some n } else s
  | .gap n => if n ≤ 500 then { s with gap := n } else s
  | .smooth b => { s with smooth := some b }
  | .invert => { s with invert := true }
  | .invertColor c => if c.isValid then { s with invert := true, invertColor := c } else s
  | .deleted b => { s with deleted := b }

/-- The line of a chart of points only, /repo/src/chart.rs:1174-1178: 2.25 points wide and hidden. -/
def hiddenLine : CLine := { width := some 2250, hidden := true }

/-- What `add_series` and `push_series` do to a series by the type of the chart, /repo/src/chart.rs:1170-1193 and 1254-1280. -/
def SeriesOpts.prepare (k : ChartKind) (s : SeriesOpts) : SeriesOpts :=
  let s := if k = .scatter then { s with format := { line := some hiddenLine } } else s
  if k = .scatterStraight ∨ k = .scatterSmooth ∨ k.group = .line ∨ k = .radar then { s with marker := some (newMarker [.none]) } else s

/-- `Chart::add_series`, /repo/src/chart.rs:1170-1193, and calls on the series. -/
def addedSeries (k : ChartKind) (calls : List SeriesCall) : SeriesOpts := calls.foldl SeriesOpts.exec (SeriesOpts.prepare k {})

/-- A series made before and given to `Chart::push_series`, /repo/src/chart.rs:1254-1280. -/
def pushedSeries (k : ChartKind) (calls : List SeriesCall) : SeriesOpts := (calls.foldl SeriesOpts.exec {}).prepare k

/-- The format of a scatter series, /repo/src/chart.rs:3893-3897. -/
def SeriesOpts.scatterFormat (s : SeriesOpts) (k : ChartKind) : CFormat :=
  if k = .scatter ∧ s.format.line = none then { s.format with line := some { width := some 2250 } } else s.format

/-- `number_of_points`, /repo/src/chart.rs:8488-8493. -/
def ChartRange.points (r : ChartRange) : Nat := max (r.d.lastRow - r.d.firstRow + 1) (r.d.lastCol - r.d.firstCol + 1)

/-- `write_extension_list`, /repo/src/chart.rs:4005-4029. -/
def invertExt (c : Color) : Tree :=
  .node "c:extLst".toList []
    [.node "c:ext".toList
      [("uri".toList, "{6F2FDCE9-48DA-4B69-8628-5D25D57E5C99}".toList),
       ("xmlns:c14".toList, "http://schemas.microsoft.com/office/drawing/2007/8/2/chart".toList)]
      [.node "c14:invertSolidFillFmt".toList []
        [.node "c14:spPr".toList [("xmlns:c14".toList, "http://schemas.microsoft.com/office/drawing/2007/8/2/chart".toList)]
          [solidTree c 0]]]]

/-- The elements between the title and the error bars, /repo/src/chart.rs:3793-3821, 3884-3915. -/
def SeriesOpts.preSecs (s : SeriesOpts) (k : ChartKind) (n : Nat) : List (Str × List Tree) :=
  (if k.group = .scatter then
    [("c:marker".toList, markerTrees s.marker), ("c:spPr".toList, (s.scatterFormat k).trees), ("c:invertIfNegative".toList, [])]
   else
    [("c:spPr".toList, s.format.trees), ("c:marker".toList, markerTrees s.marker),
     ("c:invertIfNegative".toList, oneIf "c:invertIfNegative".toList s.invert)]) ++
  [("c:dPt".toList, pointTrees k.group n s.points), ("c:dLbls".toList, labelTrees k.group n s.label s.customLabels),
   ("c:trendline".toList, s.trend.trees)]

/-- Is `c:smooth` written? /repo/src/chart.rs:3855-3861, 3932-3944. -/
def SeriesOpts.smoothOn (s : SeriesOpts) (k : ChartKind) : Bool :=
  if k.group = .line then s.smooth.getD false
  else if k.group = .scatter then s.smooth.getD (k = .scatterSmooth || k = .scatterSmoothMarkers)
  else false

/-- The elements after the values, /repo/src/chart.rs:3849-3861, 3931-3944. -/
def SeriesOpts.postSecs (s : SeriesOpts) (k : ChartKind) : List (Str × List Tree) :=
  [("c:extLst".toList, if k.group ≠ .scatter ∧ s.invertColor.isAutoOrDefault = false then [invertExt s.invertColor] else []),
   ("c:smooth".toList, oneIf "c:smooth".toList (s.smoothOn k))]

/-- The direction written for error bars, /repo/src/chart.rs:3823-3836, 3917-3925. -/
def errAxis (g : ChartGroup) (y : Bool) : Str :=
  if g = .bar ∨ g = .column then [] else if y then "y".toList else "x".toList

/-- A series with formatting as parameters of the skeleton. -/
def ChartSeries.withOpts (c : ChartSeries) (k : ChartKind) (s : SeriesOpts) : ChartSeries :=
  { c with
    pre := secTrees (s.preSecs k c.values.range.points)
    post := secTrees (s.postSecs k)
    xErr := s.xErr.map (·.toErr (errAxis k.group false))
    yErr := s.yErr.map (·.toErr (errAxis k.group true)) }

/-- A series of a chart: the data, whether it was made before it was given to `Chart::push_series`
(/repo/src/chart.rs:1254-1280, else `Chart::add_series`, 1170-1193), and the calls on it. -/
structure GivenSeries where
  data : ChartSeries
  pushed : Bool
  calls : List SeriesCall

/-- The formatting of a series in a chart, /repo/src/chart.rs:1170-1193, 1254-1280. -/
def GivenSeries.opts (g : GivenSeries) (k : ChartKind) : SeriesOpts := if g.pushed then pushedSeries k g.calls else addedSeries k g.calls

/-- The series of a chart, /repo/src/chart.rs:1170-1193, 1254-1280. -/
def ChartBody.withSeries (b : ChartBody) (k : ChartKind) (ss : List GivenSeries) : ChartBody :=
  { b with series := ss.map fun g => g.data.withOpts k (g.opts k) }

/-- The combined chart with its series. -/
def withSecond : Option ChartBody → Option (ChartKind × List GivenSeries) → Option ChartBody
  | some b, some p => some (b.withSeries p.1 p.2)
  | x, _ => x

/-- A chart, and the one that is combined with it (`Chart::combine`, /repo/src/chart.rs:1739-1749), with their series. -/
def Chart.withSeries (c : Chart) (k : ChartKind) (ss : List GivenSeries) (second : Option (ChartKind × List GivenSeries)) : Chart :=
  { c with body := c.body.withSeries k ss, combined := withSecond c.combined second }

end Verif
