import Verif.Model.ChartSeries
import Verif.Spec.ChartFmt
import Verif.Spec.Chart
/-!
How a reader sees the formatting of the series in a chart part (ECMA-376 part 1, 21.2), and what was asked for (C74).
-/
namespace Verif.Spec
open Verif

/-- Two lists of the same length whose members belong together one by one. -/
def Pairs {α β : Type} (R : α → β → Prop) : List α → List β → Prop
  | [], [] => True
  | a :: as, b :: bs => R a b ∧ Pairs R as bs
  | _, _ => False

/-! ### What a reader sees -/

/-- A marker: its symbol (automatic if there is none), its size, its format. -/
structure MarkerLook where
  symbol : Option Text
  size : Option Text
  format : FormatLook
deriving DecidableEq, Repr

/-- A `c:symbol` element, 21.2.2.205: the value is required. -/
def readSymbol (e : NodeAttrs × List Node) : Option Text := e.1.lookup "val".toList

/-- A `c:marker` element, 21.2.2.106. -/
def readMarkerLook (e : NodeAttrs × List Node) : Option MarkerLook :=
  match optChild readSymbol "c:symbol".toList e.2, readFormatIn e.2 with
  | some s, some f => some ⟨s, cVal "c:size".toList e.2, f⟩
  | _, _ => none

/-- The number in a `c:idx` element. -/
def readIdx (ks : List Node) : Option Nat := (child "c:idx".toList ks).bind fun c => attrNat "val".toList c.1

/-- The format of a point is in its marker, if it has one. -/
def pointKids (ks : List Node) : List Node :=
  match child "c:marker".toList ks with
  | some m => m.2
  | none => ks

/-- A `c:dPt` element, 21.2.2.52: the number of the point and its format. -/
def readPointLook (e : NodeAttrs × List Node) : Option (Nat × FormatLook) :=
  match readIdx e.2, readFormatIn (pointKids e.2) with
  | some i, some f => some (i, f)
  | _, _ => none

/-- A data label: what it shows and how. -/
structure LabelLook where
  code : Option (Text × Bool)
  format : FormatLook
  font : Option TextLook
  place : Option Text
  key : Bool
  value : Bool
  category : Bool
  series : Bool
  percent : Bool
  separator : Option Text
  leader : Bool
deriving DecidableEq, Repr

/-- Leader lines: an element of pie charts, or an extension. -/
def readLeader (ks : List Node) : Bool :=
  cOn "c:showLeaderLines".toList ks ||
    (match (child "c:extLst".toList ks).bind fun x => child "c:ext".toList x.2 with
     | some e => cOn "c15:showLeaderLines".toList e.2
     | none => false)

/-- The text in a child. -/
def readTextIn (t : Text) (ks : List Node) : Option (Option Text) := optChild (fun c => textOnly c.2) t ks

/-- The elements that `c:dLbls` and `c:dLbl` share, 21.2.2.47 and 21.2.2.49. -/
def readLabelLook (ks : List Node) : Option LabelLook :=
  match optChild readCode "c:numFmt".toList ks, readFormatIn ks, optChild readTextLook "c:txPr".toList ks,
    readTextIn "c:separator".toList ks with
  | some c, some f, some x, some s =>
    some {
      code := c, format := f, font := x, place := cVal "c:dLblPos".toList ks, key := cOn "c:showLegendKey".toList ks
      value := cOn "c:showVal".toList ks, category := cOn "c:showCatName".toList ks, series := cOn "c:showSerName".toList ks
      percent := cOn "c:showPercent".toList ks, separator := s, leader := readLeader ks }
  | _, _, _, _ => none

/-- The text of a custom label, if it has one. -/
def readLabelText (ks : List Node) : Option (Option Text) :=
  match (child "c:tx".toList ks).bind fun x => child "c:rich".toList x.2 with
  | none => some none
  | some r =>
    match (child "a:p".toList r.2).bind fun p => (child "a:r".toList p.2).bind fun r => (child "a:t".toList r.2).bind fun x => textOnly x.2 with
    | some s => some (some (unescapeX s))
    | none => none

/-- The label of one point. -/
structure PointLabelLook where
  idx : Nat
  deleted : Bool
  text : Option Text
  label : LabelLook
deriving DecidableEq, Repr

/-- A `c:dLbl` element. -/
def readPointLabel (e : NodeAttrs × List Node) : Option PointLabelLook :=
  match readIdx e.2, readLabelText e.2, readLabelLook e.2 with
  | some i, some t, some l => some ⟨i, cOn "c:delete".toList e.2, t, l⟩
  | _, _, _ => none

/-- The labels of a series: for all points, and for single ones. -/
structure LabelsLook where
  all : LabelLook
  points : List PointLabelLook
deriving DecidableEq, Repr

/-- A `c:dLbls` element. -/
def readLabels (e : NodeAttrs × List Node) : Option LabelsLook :=
  match readLabelLook e.2, (elems "c:dLbl".toList e.2).mapM readPointLabel with
  | some l, some ps => some ⟨l, ps⟩
  | _, _ => none

/-- A trendline. -/
structure TrendLook where
  name : Option Text
  format : FormatLook
  kind : Option Text
  order : Option Text
  period : Option Text
  forward : Option Text
  backward : Option Text
  intercept : Option Text
  rSquared : Bool
  equation : Bool
  label : Option (FormatLook × Option TextLook)
deriving DecidableEq, Repr

/-- A `c:trendlineLbl` element. -/
def readTrendLabel (e : NodeAttrs × List Node) : Option (FormatLook × Option TextLook) :=
  match readFormatIn e.2, optChild readTextLook "c:txPr".toList e.2 with
  | some f, some t => some (f, t)
  | _, _ => none

/-- A `c:trendline` element, 21.2.2.211. -/
def readTrend (e : NodeAttrs × List Node) : Option TrendLook :=
  match readTextIn "c:name".toList e.2, readFormatIn e.2, optChild readTrendLabel "c:trendlineLbl".toList e.2 with
  | some n, some f, some l =>
    some {
      name := n.map unescapeX, format := f, kind := cVal "c:trendlineType".toList e.2, order := cVal "c:order".toList e.2
      period := cVal "c:period".toList e.2, forward := cVal "c:forward".toList e.2, backward := cVal "c:backward".toList e.2
      intercept := cVal "c:intercept".toList e.2, rSquared := cOn "c:dispRSqr".toList e.2, equation := cOn "c:dispEq".toList e.2
      label := l }
  | _, _, _ => none

/-- Error bars (the cells of custom ones are read in C34). -/
structure BarsLook where
  axis : Option Text
  side : Option Text
  kind : Option Text
  noCap : Bool
  value : Option Text
  format : FormatLook
deriving DecidableEq, Repr

/-- A `c:errBars` element, 21.2.2.55. -/
def readBars (e : NodeAttrs × List Node) : Option BarsLook :=
  (readFormatIn e.2).map fun f =>
    { axis := cVal "c:errDir".toList e.2, side := cVal "c:errBarType".toList e.2, kind := cVal "c:errValType".toList e.2
      noCap := cOn "c:noEndCap".toList e.2, value := cVal "c:val".toList e.2, format := f }

/-- The look of a series. -/
structure SeriesLook where
  format : FormatLook
  marker : Option MarkerLook
  invert : Bool
  inverted : Option DrawColour
  points : List (Nat × FormatLook)
  labels : Option LabelsLook
  trend : Option TrendLook
  bars : List BarsLook
  smooth : Bool
deriving DecidableEq, Repr

/-- The fill of inverted values, an extension. -/
def readInverted (ks : List Node) : Option (Option DrawColour) :=
  match ((child "c:extLst".toList ks).bind fun x => child "c:ext".toList x.2).bind fun x => child "c14:invertSolidFillFmt".toList x.2 with
  | none => some none
  | some x =>
    match child "c14:spPr".toList x.2 with
    | some p => readColourChild "a:solidFill".toList p.2
    | none => some none

/-- A `c:ser` element. -/
def readSeriesLook (e : NodeAttrs × List Node) : Option SeriesLook :=
  match readFormatIn e.2, optChild readMarkerLook "c:marker".toList e.2, readInverted e.2,
    (elems "c:dPt".toList e.2).mapM readPointLook, optChild readLabels "c:dLbls".toList e.2,
    optChild readTrend "c:trendline".toList e.2, (elems "c:errBars".toList e.2).mapM readBars with
  | some f, some m, some i, some ps, some l, some t, some bs =>
    some ⟨f, m, cOn "c:invertIfNegative".toList e.2, i, ps, l, t, bs, cOn "c:smooth".toList e.2⟩
  | _, _, _, _, _, _, _ => none

/-- The series of a chart part, in the order of the chart groups. -/
def readSeriesLooks (n : Node) : Option (List SeriesLook) :=
  (plotAreaOf n).bind fun ks => ((elemsIn groupTags ks).flatMap fun e => elems "c:ser".toList e.2.2).mapM readSeriesLook

/-! ### What was asked for: markers -/

/-- The names of the symbols of markers, 21.2.3.27. -/
def shapeName : MarkerShape → Text
  | .square => "square".toList
  | .diamond => "diamond".toList
  | .triangle => "triangle".toList
  | .x => "x".toList
  | .star => "star".toList
  | .shortDash => "dot".toList
  | .longDash => "dash".toList
  | .circle => "circle".toList
  | .plus => "plus".toList

/-- The symbol. -/
def saysShape : MarkerCall → Option (Option MarkerShape)
  | .type t => some (some t)
  | _ => none

/-- The size, if it is one of 2 to 72. -/
def saysSize : MarkerCall → Option (Option Nat)
  | .size n => if 2 ≤ n ∧ n ≤ 72 then some (some n) else none
  | _ => none

/-- The format. -/
def saysMarkerFormat : MarkerCall → Option CFormat
  | .format f => some f
  | _ => none

/-- Markers are automatic if that was asked for after the symbol and the size. -/
def saysAutomatic : MarkerCall → Option Bool
  | .automatic => some true
  | .type _ => some false
  | .size n => if 2 ≤ n ∧ n ≤ 72 then some false else none
  | _ => none

/-- Not decided here: markers that are turned off and are also automatic or have a symbol, and markers for which neither a symbol was given nor
that there are none. -/
def markerClear (calls : List MarkerCall) : Prop :=
  if MarkerCall.none ∈ calls then (lastSaid saysShape none calls = none ∧ MarkerCall.automatic ∉ calls)
  else lastSaid saysAutomatic false calls = true ∨ lastSaid saysShape none calls ≠ none

/-- A marker with the symbol, size and format asked for; none if it is automatic. -/
def MarkerMeant (calls : List MarkerCall) (s : Option MarkerLook) : Prop :=
  if lastSaid saysAutomatic false calls then s = none
  else ∃ m, s = some m ∧
    m.symbol = (if MarkerCall.none ∈ calls then some "none".toList else (lastSaid saysShape none calls).map shapeName) ∧
    m.size = (lastSaid saysSize none calls).map showNat ∧ FormatMeant (lastSaid saysMarkerFormat {} calls) m.format

/-! ### Labels -/

/-- The names of the places of labels, 21.2.3.10. -/
def spotName : LabelSpot → Text
  | .default => []
  | .center => "ctr".toList
  | .right => "r".toList
  | .left => "l".toList
  | .above => "t".toList
  | .below => "b".toList
  | .insideBase => "inBase".toList
  | .insideEnd => "inEnd".toList
  | .outsideEnd => "outEnd".toList
  | .bestFit => "bestFit".toList

/-- Where labels are if nothing is said, by the type of the chart. -/
def usualSpot : ChartGroup → LabelSpot
  | .area | .radar => .center
  | .bar | .column => .outsideEnd
  | .doughnut | .pie => .bestFit
  | .line | .scatter | .stock => .right

/-- The number format of a label. -/
def saysLabelCode : LabelCall → Option Text
  | .numFormat s => some s
  | _ => none

/-- The format of a label. -/
def saysLabelFormat : LabelCall → Option CFormat
  | .format f => some f
  | _ => none

/-- The font of a label. -/
def saysLabelFont : LabelCall → Option (Option CFont)
  | .font f => some (some f)
  | _ => none

/-- The place of a label. -/
def saysSpot : LabelCall → Option LabelSpot
  | .spot p => some p
  | _ => none

/-- The separator of what a label shows. -/
def saysSeparator : LabelCall → Option Char
  | .separator c => if c = ';' ∨ c = '.' ∨ c = ' ' ∨ c = '\n' then some c else none
  | _ => none

/-- The text of a label. -/
def saysLabelText : LabelCall → Option Text
  | .text s => some s
  | _ => none

/-- A text is given. -/
def isText : LabelCall → Bool
  | .text _ => true
  | _ => false

/-- The look of a label: number format, format, font, place, what it shows, the separator, leader lines. `value` is whether the value
is shown, `font` the font of the label. Not decided here: a space or a new line as the separator. -/
structure LabelMeant (g : ChartGroup) (calls : List LabelCall) (s : LabelLook) : Prop where
  code : s.code = if lastSaid saysLabelCode [] calls = [] then none else some (lastSaid saysLabelCode [] calls, false)
  format : FormatMeant (lastSaid saysLabelFormat {} calls) s.format
  place : s.place.getD (spotName (usualSpot g)) =
    if lastSaid saysSpot .default calls = .default then spotName (usualSpot g) else spotName (lastSaid saysSpot .default calls)
  key : s.key = decide (LabelCall.key ∈ calls)
  category : s.category = decide (LabelCall.category ∈ calls)
  series : s.series = decide (LabelCall.series ∈ calls)
  percent : s.percent = decide (LabelCall.percent ∈ calls)
  leader : s.leader = decide (LabelCall.leader ∈ calls)
  separator : ∀ c, lastSaid saysSeparator ',' calls = c → c ≠ ' ' → c ≠ '\n' →
    s.separator = if c = ',' then none else some [c, ' ']

/-- The font of a label. -/
def LabelFontMeant (calls : List LabelCall) (s : LabelLook) : Prop :=
  match lastSaid saysLabelFont none calls with
  | none => s.font = none
  | some f => ∃ t, s.font = some t ∧ TextMeant false false f t

/-- The labels of a series show the value if that was asked for or nothing else was asked for. Not decided here: labels for which only
the name of the series was asked for. -/
structure SeriesLabelMeant (g : ChartGroup) (calls : List LabelCall) (s : LabelLook) : Prop where
  common : LabelMeant g calls s
  font : LabelFontMeant calls s
  value : calls.any isText = false → (LabelCall.series ∈ calls → LabelCall.value ∈ calls ∨ LabelCall.category ∈ calls ∨ LabelCall.percent ∈ calls) →
    s.value = decide (LabelCall.value ∈ calls ∨ (LabelCall.category ∉ calls ∧ LabelCall.series ∉ calls ∧ LabelCall.percent ∉ calls))

/-- The label of a point: gone, or with its text, and with the value if that was asked for (a text counts as that). -/
structure PointLabelMeant (g : ChartGroup) (calls : List LabelCall) (i : Nat) (s : PointLabelLook) : Prop where
  idx : s.idx = i
  deleted : s.deleted = decide (LabelCall.hidden ∈ calls)
  text : LabelCall.hidden ∉ calls → s.text = if lastSaid saysLabelText [] calls = [] then none else some (lastSaid saysLabelText [] calls)
  label : LabelCall.hidden ∉ calls → LabelMeant g calls s.label
  font : LabelCall.hidden ∉ calls → lastSaid saysLabelText [] calls = [] → LabelFontMeant calls s.label
  value : LabelCall.hidden ∉ calls → s.label.value = (decide (LabelCall.value ∈ calls) || calls.any isText)

/-- The members of a list with their places, up to a number of points, that are not left out. -/
def upTo {α : Type} (n : Nat) (keep : α → Bool) (l : List α) : List (α × Nat) :=
  l.zipIdx.filter fun p => decide (p.2 < n) && keep p.1

/-- The labels of a series and of its points; labels of points after the last one, and those that say nothing, are not there. -/
structure LabelsMeant (g : ChartGroup) (n : Nat) (calls : List LabelCall) (points : List (List LabelCall)) (s : LabelsLook) : Prop where
  all : SeriesLabelMeant g calls s.all
  points : Pairs (fun p l => PointLabelMeant g p.1 p.2 l) (upTo n (fun c => decide (newLabel c ≠ {})) points) s.points

/-! ### Trendlines and error bars -/

/-- The names of the kinds of trendlines, 21.2.3.50. -/
def trendName : TrendKind → Text
  | .none => []
  | .exponential => "exp".toList
  | .linear => "linear".toList
  | .logarithmic => "log".toList
  | .power => "power".toList
  | .polynomial _ => "poly".toList
  | .movingAverage _ => "movingAvg".toList

/-- The kind of trendline. -/
def saysTrendKind : TrendCall → Option TrendKind
  | .type k => some k
  | _ => none

/-- Its name. -/
def saysTrendName : TrendCall → Option Text
  | .name s => some s
  | _ => none

/-- Its format. -/
def saysTrendFormat : TrendCall → Option CFormat
  | .format f => some f
  | _ => none

/-- The format of its label. -/
def saysTrendLabelFormat : TrendCall → Option CFormat
  | .labelFormat f => some f
  | _ => none

/-- The font of its label. -/
def saysTrendLabelFont : TrendCall → Option (Option CFont)
  | .labelFont f => some (some f)
  | _ => none

/-- How far it goes on to the right, above zero. -/
def saysForward : TrendCall → Option (Option Text)
  | .forward true v => some (some v)
  | .forward false _ => some none
  | _ => none

/-- How far it goes on to the left, above zero. -/
def saysBackward : TrendCall → Option (Option Text)
  | .backward true v => some (some v)
  | .backward false _ => some none
  | _ => none

/-- Its equation is shown. -/
def saysEquation : TrendCall → Option Bool
  | .equation b => some b
  | _ => none

/-- Its R-squared is shown. -/
def saysRSquared : TrendCall → Option Bool
  | .rSquared b => some b
  | _ => none

/-- Where it crosses the axis. -/
def saysIntercept : TrendCall → Option (Option Text)
  | .intercept v => some (some v)
  | _ => none

/-- A trendline as asked for. The format and font of its label are shown if it has an equation. -/
structure TrendMeant (calls : List TrendCall) (s : TrendLook) : Prop where
  kind : s.kind = some (trendName (lastSaid saysTrendKind .none calls))
  order : s.order = match lastSaid saysTrendKind .none calls with | .polynomial n => some (showNat n) | _ => none
  period : s.period = match lastSaid saysTrendKind .none calls with | .movingAverage n => some (showNat n) | _ => none
  name : s.name = if lastSaid saysTrendName [] calls = [] then none else some (lastSaid saysTrendName [] calls)
  format : FormatMeant (lastSaid saysTrendFormat {} calls) s.format
  forward : s.forward = lastSaid saysForward none calls
  backward : s.backward = lastSaid saysBackward none calls
  intercept : s.intercept = lastSaid saysIntercept none calls
  rSquared : s.rSquared = lastSaid saysRSquared false calls
  equation : s.equation = lastSaid saysEquation false calls
  label : lastSaid saysEquation false calls = true →
    ∃ f t, s.label = some (f, t) ∧ FormatMeant (lastSaid saysTrendLabelFormat {} calls) f ∧
      (match lastSaid saysTrendLabelFont none calls with
        | none => t = none
        | some x => ∃ k, t = some k ∧ TextMeant false false x k)

/-- The names of the kinds of error bars, 21.2.3.17. -/
def barsName : ErrKind → Text
  | .fixed _ => "fixedVal".toList
  | .percentage _ => "percentage".toList
  | .deviation _ => "stdDev".toList
  | .standardError => "stdErr".toList
  | .custom _ _ => "cust".toList

/-- The number in error bars. -/
def barsValue : ErrKind → Option Text
  | .fixed v | .percentage v | .deviation v => some v
  | _ => none

/-- The names of the sides of error bars, 21.2.3.15. -/
def barsSide : ErrDirection → Text
  | .both => "both".toList
  | .minus => "minus".toList
  | .plus => "plus".toList

/-- The kind of error bars, if its number is not refused. -/
def saysBarsKind : ErrCall → Option ErrKind
  | .type _ .standardError => some .standardError
  | .type _ (.custom p m) => some (.custom p m)
  | .type refused k => if refused then none else some k
  | _ => none

/-- The side. -/
def saysBarsSide : ErrCall → Option ErrDirection
  | .direction d => some d
  | _ => none

/-- The end caps. -/
def saysCap : ErrCall → Option Bool
  | .endCap b => some b
  | _ => none

/-- The format. -/
def saysBarsFormat : ErrCall → Option CFormat
  | .format f => some f
  | _ => none

/-- Error bars as asked for. -/
structure BarsMeant (axis : Option Text) (calls : List ErrCall) (s : BarsLook) : Prop where
  axis : s.axis = axis
  side : s.side = some (barsSide (lastSaid saysBarsSide .both calls))
  kind : s.kind = some (barsName (lastSaid saysBarsKind .standardError calls))
  value : s.value = barsValue (lastSaid saysBarsKind .standardError calls)
  noCap : s.noCap = !lastSaid saysCap true calls
  format : FormatMeant (lastSaid saysBarsFormat {} calls) s.format

/-! ### Series -/

/-- The format of a series. -/
def saysSeriesFormat : SeriesCall → Option CFormat
  | .format f => some f
  | _ => none

/-- The marker of a series. -/
def saysMarker : SeriesCall → Option (Option CMarker)
  | .marker m => some (some m)
  | _ => none

/-- The labels of a series. -/
def saysLabel : SeriesCall → Option (Option CLabel)
  | .label l => some (some l)
  | _ => none

/-- The labels of the points of a series. -/
def saysCustom : SeriesCall → Option (Option (List CLabel))
  | .customLabels ls => some (some ls)
  | _ => none

/-- The formats of points: given, or as colours. -/
def saysPoints : SeriesCall → Option (List CFormat)
  | .points fs => some fs
  | .pointColors cs => some (cs.map fun c => { solid := some { color := c, transparency := 0 } })
  | _ => none

/-- The trendline. -/
def saysTrend : SeriesCall → Option (Option CTrend)
  | .trend t => some (some t)
  | _ => none

/-- Vertical error bars. -/
def saysYBars : SeriesCall → Option (Option CErrBars)
  | .yErr e => some (some e)
  | _ => none

/-- Horizontal error bars. -/
def saysXBars : SeriesCall → Option (Option CErrBars)
  | .xErr e => some (some e)
  | _ => none

/-- Smooth lines. -/
def saysSmooth : SeriesCall → Option (Option Bool)
  | .smooth b => some (some b)
  | _ => none

/-- Negative values are shown with another fill. -/
def saysInvert : SeriesCall → Option Bool
  | .invert => some true
  | .invertColor c => if c.isValid then some true else none
  | _ => none

/-- The fill of negative values. -/
def saysInvertColor : SeriesCall → Option (Option Color)
  | .invertColor c => if c.isValid then some (some c) else none
  | _ => none

/-- The format of a new series: in a scatter chart of points its line is not shown. -/
def newFormat (k : ChartKind) : CFormat := if k = .scatter then { line := some { width := some 2250, hidden := true } } else {}

/-- New series that have no markers. -/
def noMarkers (k : ChartKind) : Bool := decide (k = .scatterStraight ∨ k = .scatterSmooth ∨ k.group = .line ∨ k = .radar)

/-- Are lines smooth by default? -/
def usuallySmooth (k : ChartKind) : Bool := decide (k = .scatterSmooth ∨ k = .scatterSmoothMarkers)

/-- The error bars shown for a type of chart, with the direction that is written: horizontal ones in bar charts and scatter charts,
vertical ones in all others and in scatter charts. -/
def barsAsked (g : ChartGroup) (calls : List SeriesCall) : List (CErrBars × Option Text) :=
  (if g = .bar ∨ g = .scatter then (lastSaid saysXBars none calls).toList.map fun e => (e, if g = .bar then none else some "x".toList) else []) ++
  (if g = .bar then [] else (lastSaid saysYBars none calls).toList.map fun e => (e, if g = .column then none else some "y".toList))

/-- The look of a series with `n` values in a chart of type `k` after calls on a new series. Parts that are made by their own calls
(markers, labels, trendlines, error bars) look as those calls say. Not decided here: a scatter chart of points with a format without a
line. -/
structure SeriesLookMeant (k : ChartKind) (n : Nat) (calls : List SeriesCall) (s : SeriesLook) : Prop where
  format : (k = .scatter → (lastSaid saysSeriesFormat (newFormat k) calls).line ≠ none ∨ (lastSaid saysSeriesFormat (newFormat k) calls).noLine = true) →
    FormatMeant (lastSaid saysSeriesFormat (newFormat k) calls) s.format
  marker : match lastSaid saysMarker none calls with
    | none => if noMarkers k then (∃ m, s.marker = some m ∧ m.symbol = some "none".toList ∧ m.size = none) else s.marker = none
    | some m => ∀ mc, m = newMarker mc → markerClear mc → MarkerMeant mc s.marker
  invert : k.group ≠ .scatter → s.invert = lastSaid saysInvert false calls
  inverted : k.group ≠ .scatter → ∀ c, lastSaid saysInvertColor none calls = c →
    s.inverted = if c.isSome = true ∧ (c.getD .default).isAutoOrDefault = false then some (drawColour (c.getD .default) 0) else none
  points : Pairs (fun p q => q.1 = p.2 ∧ FormatMeant p.1 q.2) (upTo n (·.hasFormatting) (lastSaid saysPoints [] calls)) s.points
  noLabels : lastSaid saysLabel none calls = none → lastSaid saysCustom none calls = none → s.labels = none
  labels : ∀ l ls, (lastSaid saysLabel none calls = some (newLabel l) ∨ (lastSaid saysLabel none calls = none ∧ l = [] ∧ lastSaid saysCustom none calls ≠ none)) →
    (lastSaid saysCustom none calls).getD [] = ls.map newLabel → ∃ q, s.labels = some q ∧ LabelsMeant k.group n l ls q
  trend : ∀ t, (lastSaid saysTrend none calls).getD {} = newTrend t →
    if lastSaid saysTrendKind .none t = .none then s.trend = none else ∃ q, s.trend = some q ∧ TrendMeant t q
  bars : Pairs (fun e b => ∀ ec, e.1 = newErrBars ec → BarsMeant e.2 ec b) (barsAsked k.group calls) s.bars
  smooth : s.smooth = if k.group = .line then (lastSaid saysSmooth none calls).getD false
    else if k.group = .scatter then (lastSaid saysSmooth none calls).getD (usuallySmooth k) else false

/-! ### What can be written -/

/-- The parts of a marker can be written. -/
def markerOk (m : CMarker) : Bool := cFormatOk m.format && (m.automatic || m.none || m.shape.isSome)

/-- The texts of a label can be written, and its separator is one that can be given. -/
def labelOk (l : CLabel) : Bool :=
  decide (l.separator ∈ [',', ';', '.', ' ', '\n']) && cFormatOk l.format && (match l.font with | some f => cFontOk f | none => true) && attrSafe l.numFormat && plain l.text

/-- The parts of a trendline can be written. -/
def trendOk (t : CTrend) : Bool :=
  cFormatOk t.format && cFormatOk t.labelFormat && (match t.labelFont with | some f => cFontOk f | none => true) && plain t.name &&
  [t.forward, t.backward, t.intercept].all fun o => match o with | some v => attrSafe v | none => true

/-- The parts of error bars can be written. -/
def barsOk (e : CErrBars) : Bool :=
  cFormatOk e.format && (match e.kind with | .fixed v | .percentage v | .deviation v => attrSafe v | _ => true)

/-- The parts of a call can be written. -/
def seriesCallOk : SeriesCall → Bool
  | .format f => cFormatOk f
  | .marker m => markerOk m
  | .label l => labelOk l
  | .customLabels ls => ls.all labelOk
  | .points fs => fs.all cFormatOk
  | .pointColors cs => cs.all fun c => c.isValid
  | .trend t => trendOk t
  | .yErr e => barsOk e
  | .xErr e => barsOk e
  | _ => true

/-- The series of a chart in the order of its chart groups, those on the secondary axes last. -/
def inGroups (k : ChartKind) (ss : List GivenSeries) : List (ChartKind × GivenSeries) :=
  (ss.filter (fun g => !g.data.secondary) ++ ss.filter (fun g => g.data.secondary)).map fun g => (k, g)

/-- The series of a chart and of the one combined with it. -/
def allSeries (k : ChartKind) (ss : List GivenSeries) (second : Option (ChartKind × List GivenSeries)) : List (ChartKind × GivenSeries) :=
  inGroups k ss ++ (match second with | some p => inGroups p.1 p.2 | none => [])

/-- A series made before it is given to a chart keeps its format and its marker if new series of the chart have no format and no marker
of their own. -/
def givenOk (k : ChartKind) (g : GivenSeries) : Prop :=
  (g.pushed = true → k ≠ .scatter ∧ noMarkers k = false) ∧ (∀ c ∈ g.calls, seriesCallOk c = true)

end Verif.Spec
