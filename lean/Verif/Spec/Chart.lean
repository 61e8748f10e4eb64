import Verif.Model.Chart
import Verif.Spec.Names
import Verif.Spec.Sheet
import Verif.Spec.Style
import Verif.Spec.Notes
/-!
How a reader sees the chart part (ECMA-376 part 1, 21.2): the series with the cells they refer to and the cached
values of these cells, the chart groups and the axes. The last section says what a chart means in terms of the
public properties of `Chart` and of the cells the worksheets show.
-/
namespace Verif.Spec

/-- The child elements with a tag. -/
def elems (t : Text) (ns : List Node) : List (NodeAttrs × List Node) :=
  ns.filterMap fun n => match n with
    | .elem t' as ks => if t' = t then some (as, ks) else none
    | .text _ => none

/-- A reference to cells with the cached values, 21.2.2.123 and 21.2.2.201: `points` are the positions in the range
with their values, `count` the number of points. -/
structure RefSeen where
  sheet : Text
  range : (Nat × Nat) × (Nat × Nat)
  isText : Bool
  isDate : Bool
  count : Option Nat
  points : List (Nat × Text)
deriving DecidableEq, Repr

/-- A `c:pt` element. -/
def readPoint (e : NodeAttrs × List Node) : Option (Nat × Text) :=
  match attrNat "idx".toList e.1, (child "c:v".toList e.2).bind fun c => textOnly c.2 with
  | some i, some v => some (i, unescapeX v)
  | _, _ => none

/-- The formula of a reference: the sheet and the range. -/
def readChartFormula (ks : List Node) : Option (Text × ((Nat × Nat) × (Nat × Nat))) :=
  match ((child "c:f".toList ks).bind fun c => textOnly c.2).bind readSheetRef with
  | some (n, rest) => (readRangeAbs rest).map fun r => (n, r)
  | none => none

/-- A date format in a number cache. -/
def readIsDate (ks : List Node) : Bool :=
  ((child "c:formatCode".toList ks).bind fun c => textOnly c.2) == some "dd/mm/yyyy".toList

/-- The reference with its cache, if there is one. -/
def readRefWith (isText : Bool) (cacheTag : Text) (ks : List Node) : Option RefSeen :=
  match readChartFormula ks with
  | none => none
  | some (n, r) =>
    match child cacheTag ks with
    | none => some ⟨n, r, isText, false, none, []⟩
    | some (_, cs) =>
      match (child "c:ptCount".toList cs).bind (fun c => attrNat "val".toList c.1),
        (elems "c:pt".toList cs).mapM readPoint with
      | some k, some ps => some ⟨n, r, isText, readIsDate cs, some k, ps⟩
      | _, _ => none

/-- A `c:numRef` or `c:strRef` element among the children. -/
def readRef (ks : List Node) : Option RefSeen :=
  match child "c:numRef".toList ks with
  | some (_, k) => readRefWith false "c:numCache".toList k
  | none =>
    match child "c:strRef".toList ks with
    | some (_, k) => readRefWith true "c:strCache".toList k
    | none => none

/-- The name of a series: a text or a reference. -/
inductive NameSeen where
  | text (s : Text)
  | ref (r : RefSeen)
deriving DecidableEq, Repr

/-- A child element that has a reference in it; the outer `Option` is `none` if it cannot be read. -/
def readRefChild (t : Text) (ks : List Node) : Option (Option RefSeen) :=
  match child t ks with
  | none => some none
  | some c => (readRef c.2).map some

/-- The `c:tx` element of a series. -/
def readSeriesName (ks : List Node) : Option (Option NameSeen) :=
  match child "c:tx".toList ks with
  | none => some none
  | some c =>
    match child "c:v".toList c.2 with
    | some v => (textOnly v.2).map fun s => some (.text (unescapeX s))
    | none => (readRef c.2).map fun r => some (.ref r)

/-- Custom error bars: the references of the two directions. -/
structure ErrSeen where
  plus : Option RefSeen
  minus : Option RefSeen
deriving DecidableEq, Repr

/-- A `c:errBars` element. -/
def readErr (e : NodeAttrs × List Node) : Option ErrSeen :=
  match readRefChild "c:plus".toList e.2, readRefChild "c:minus".toList e.2 with
  | some p, some m => some ⟨p, m⟩
  | _, _ => none

/-- A series, 21.2.2.170. -/
structure SeriesSeen where
  idx : Nat
  order : Nat
  name : Option NameSeen
  errors : List ErrSeen
  cats : Option RefSeen
  vals : Option RefSeen
deriving DecidableEq, Repr

/-- The categories and values of a series: `c:cat` and `c:val`, or `c:xVal` and `c:yVal` in a scatter chart. -/
def readData (scatter : Bool) (ks : List Node) : Option (Option RefSeen × Option RefSeen) :=
  match readRefChild (if scatter then "c:xVal".toList else "c:cat".toList) ks,
    readRefChild (if scatter then "c:yVal".toList else "c:val".toList) ks with
  | some c, some v => some (c, v)
  | _, _ => none

/-- A `c:ser` element. -/
def readSeries (scatter : Bool) (e : NodeAttrs × List Node) : Option SeriesSeen :=
  match (child "c:idx".toList e.2).bind (fun c => attrNat "val".toList c.1),
    (child "c:order".toList e.2).bind (fun c => attrNat "val".toList c.1), readSeriesName e.2,
    (elems "c:errBars".toList e.2).mapM readErr, readData scatter e.2 with
  | some i, some o, some n, some es, some d => some ⟨i, o, n, es, d.1, d.2⟩
  | _, _, _, _, _ => none

/-- A chart group, such as `c:barChart`: its series and the axes it is drawn on. -/
structure GroupSeen where
  tag : Text
  series : List SeriesSeen
  axes : List Nat
deriving DecidableEq, Repr

/-- The elements of chart groups (without the 3D ones). -/
def groupTags : List Text :=
  ["c:areaChart".toList, "c:barChart".toList, "c:doughnutChart".toList, "c:lineChart".toList, "c:pieChart".toList,
   "c:radarChart".toList, "c:scatterChart".toList, "c:stockChart".toList]

/-- The elements of axes. -/
def axisTags : List Text := ["c:catAx".toList, "c:dateAx".toList, "c:valAx".toList]

/-- The child elements whose tag is in a list. -/
def elemsIn (ts : List Text) (ns : List Node) : List (Text × NodeAttrs × List Node) :=
  ns.filterMap fun n => match n with
    | .elem t as ks => if t ∈ ts then some (t, as, ks) else none
    | .text _ => none

/-- In a scatter chart the data have other elements. -/
def isScatter (t : Text) : Bool := t = "c:scatterChart".toList

/-- A chart group. -/
def readGroup (e : Text × NodeAttrs × List Node) : Option GroupSeen :=
  match (elems "c:ser".toList e.2.2).mapM (readSeries (isScatter e.1)),
    (elems "c:axId".toList e.2.2).mapM fun c => attrNat "val".toList c.1 with
  | some ss, some as => some ⟨e.1, ss, as⟩
  | _, _ => none

/-- The title of a chart or an axis that refers to cells; the outer `Option` is `none` if it cannot be read. A title
with another kind of text has no reference. -/
def readTitleRef (ks : List Node) : Option (Option RefSeen) :=
  match child "c:title".toList ks with
  | none => some none
  | some c =>
    match child "c:tx".toList c.2 with
    | none => some none
    | some x =>
      match child "c:strRef".toList x.2 with
      | none => some none
      | some _ => (readRef x.2).map some

/-- An axis: its element, its id, the id of the axis it crosses, its title. -/
structure AxisSeen where
  tag : Text
  id : Nat
  cross : Nat
  title : Option RefSeen
deriving DecidableEq, Repr

/-- An axis. -/
def readAxis (e : Text × NodeAttrs × List Node) : Option AxisSeen :=
  match (child "c:axId".toList e.2.2).bind (fun c => attrNat "val".toList c.1),
    (child "c:crossAx".toList e.2.2).bind (fun c => attrNat "val".toList c.1), readTitleRef e.2.2 with
  | some i, some x, some t => some ⟨e.1, i, x, t⟩
  | _, _, _ => none

/-- What a reader finds in a chart part. -/
structure ChartSeen where
  title : Option RefSeen
  groups : List GroupSeen
  axes : List AxisSeen
deriving DecidableEq, Repr

/-- A chart part. -/
def readChart : Node → Option ChartSeen
  | .elem t _ ks =>
    if t ≠ "c:chartSpace".toList then none
    else
      match child "c:chart".toList ks with
      | none => none
      | some c =>
        match child "c:plotArea".toList c.2 with
        | none => none
        | some p =>
          match readTitleRef c.2, (elemsIn groupTags p.2).mapM readGroup, (elemsIn axisTags p.2).mapM readAxis with
          | some t, some gs, some as => some ⟨t, gs, as⟩
          | _, _, _ => none
  | .text _ => none

/-! ### What a chart means -/

/-- The cells of a range, row by row. -/
def rangeCells (d : Dims) : List (Nat × Nat) :=
  (List.range' d.firstRow (d.lastRow + 1 - d.firstRow)).flatMap fun r =>
    (List.range' d.firstCol (d.lastCol + 1 - d.firstCol)).map fun c => (r, c)

/-- The value of a cell as a text. Formulas, booleans, errors and rich text have none. -/
def cachedText : Content → Text
  | .number n => n
  | .dateTime n => n
  | .text t => t
  | _ => []

/-- The value of a cell as a number: a text counts as zero. -/
def cachedNumber : Content → Option Text
  | .number n => if n = [] then none else some n
  | .dateTime n => if n = [] then none else some n
  | .text t => if t = [] then none else some "0".toList
  | _ => none

/-- Is the cell a text? -/
def isTextCell : Content → Bool
  | .text _ => true
  | _ => false

/-- Whether the cell is a date, for a cell that is a number or a date. -/
def dateCell : Content → Option Bool
  | .number _ => some false
  | .dateTime _ => some true
  | _ => none

/-- What a range is used for: a title, the categories, or numbers. -/
inductive RefUse where
  | name | categories | numbers
deriving DecidableEq, Repr

/-- Is the range written as text? A title always is, categories if there is a text among them. -/
def usedAsText (u : RefUse) (cs : List Content) : Bool :=
  match u with
  | .name => true
  | .categories => cs.any isTextCell
  | .numbers => false

/-- The points of a range: one for each cell, or one for each cell with a number. -/
def pointsMeant (u : RefUse) (cs : List Content) : List (Nat × Text) :=
  if usedAsText u cs then cs.zipIdx.map fun p => (p.2, cachedText p.1)
  else cs.zipIdx.filterMap fun p => (cachedNumber p.1).map fun v => (p.2, v)

/-- A range is shown as dates if it is shown as numbers, has no text and its last number is a date. -/
def dateMeant (u : RefUse) (cs : List Content) : Bool :=
  !usedAsText u cs && !cs.any isTextCell && (cs.filterMap dateCell).getLast?.getD false

/-- The contents of the cells of a range, row by row. -/
def rangeContents (shown : Text → Nat → Nat → Content) (r : ChartRange) : List Content :=
  (rangeCells r.d).map fun p => shown r.sheet p.1 p.2

/-- A reference to a range whose cells show `shown`. -/
def refMeant (shown : Text → Nat → Nat → Content) (u : RefUse) (r : ChartRange) : RefSeen where
  sheet := r.sheet
  range := ((r.d.firstRow, r.d.firstCol), (r.d.lastRow, r.d.lastCol))
  isText := usedAsText u (rangeContents shown r)
  isDate := dateMeant u (rangeContents shown r)
  count := some ((r.d.lastRow + 1 - r.d.firstRow) * (r.d.lastCol + 1 - r.d.firstCol))
  points := pointsMeant u (rangeContents shown r)

/-- The title of a chart or an axis that refers to cells, if it is one. -/
def titleMeant (shown : Text → Nat → Nat → Content) (t : ChartTitle) : Option RefSeen :=
  if t.name = [] ∧ t.ref.range.sheet ≠ [] then some (refMeant shown .name t.ref.range) else none

/-- The name of a series. -/
def nameMeant (shown : Text → Nat → Nat → Content) (t : ChartTitle) : Option NameSeen :=
  if t.name ≠ [] then some (.text t.name)
  else if t.ref.range.sheet ≠ [] then some (.ref (refMeant shown .name t.ref.range))
  else none

/-- Error bars: custom ones refer to two ranges. -/
def errMeant (shown : Text → Nat → Nat → Content) (e : ErrorBars) : ErrSeen :=
  if e.custom then ⟨some (refMeant shown .numbers e.plus.range), some (refMeant shown .numbers e.minus.range)⟩
  else ⟨none, none⟩

/-- Series number `i`. Bar charts have horizontal error bars, scatter charts both, the others vertical ones. -/
def seriesMeant (shown : Text → Nat → Nat → Content) (g : ChartGroup) (i : Nat) (s : ChartSeries) : SeriesSeen where
  idx := i
  order := i
  name := nameMeant shown s.title
  errors := ((if g = .bar ∨ g = .scatter then s.xErr.toList else []) ++
    (if g = .bar then [] else s.yErr.toList)).map (errMeant shown)
  cats := if s.cats.range.sheet ≠ [] then some (refMeant shown .categories s.cats.range) else none
  vals := some (refMeant shown .numbers s.values.range)

/-- The series of a chart, numbered from `i`. -/
def seriesListMeant (shown : Text → Nat → Nat → Content) (g : ChartGroup) (i : Nat) (ss : List ChartSeries) :
    List SeriesSeen :=
  ss.zipIdx.map fun p => seriesMeant shown g (i + p.2) p.1

/-- The element of a chart group, 21.2.2: columns are bars in another direction. -/
def groupElement (g : ChartGroup) : Text :=
  match g with
  | .area => "c:areaChart".toList
  | .bar | .column => "c:barChart".toList
  | .doughnut => "c:doughnutChart".toList
  | .line => "c:lineChart".toList
  | .pie => "c:pieChart".toList
  | .radar => "c:radarChart".toList
  | .scatter => "c:scatterChart".toList
  | .stock => "c:stockChart".toList

/-- A chart group, left out if it has no series. -/
def groupMeant (shown : Text → Nat → Nat → Content) (g : ChartGroup) (ids : Nat × Nat) (i : Nat)
    (ss : List ChartSeries) : List GroupSeen :=
  if ss = [] then []
  else [⟨groupElement g, seriesListMeant shown g i ss, if g = .pie ∨ g = .doughnut then [] else [ids.1, ids.2]⟩]

/-- The groups of a chart: the series on the primary axes, then those on the secondary axes. -/
def groupsMeant (shown : Text → Nat → Nat → Content) (ids ids2 : Nat × Nat) (i : Nat) (b : ChartBody) :
    List GroupSeen :=
  let first := b.series.filter fun s => !s.secondary
  groupMeant shown b.group ids i first ++
    groupMeant shown b.group ids2 (i + first.length) (b.series.filter fun s => s.secondary)

/-- The series of the combined chart are numbered after those of the main chart. -/
def allGroupsMeant (shown : Text → Nat → Nat → Content) (c : Chart) : List GroupSeen :=
  groupsMeant shown c.axisIds c.axis2Ids 0 c.body ++
    match c.combined with
    | some b => groupsMeant shown c.axisIds c.axis2Ids c.body.series.length b
    | none => []

/-- The two axes of a pair of ids: the one of the categories and the one of the values. -/
def axisPairMeant (shown : Text → Nat → Nat → Content) (first : Text) (ids : Nat × Nat) (cat val : ChartTitle) :
    AxisSeen × AxisSeen :=
  (⟨first, ids.1, ids.2, titleMeant shown cat⟩, ⟨"c:valAx".toList, ids.2, ids.1, titleMeant shown val⟩)

/-- The element of the category axis. -/
def catAxisTag (g : ChartGroup) (isDate : Bool) : Text :=
  if g = .scatter then "c:valAx".toList else if isDate then "c:dateAx".toList else "c:catAx".toList

/-- The primary axes. In a bar chart the category axis is the vertical one. -/
def primaryAxesMeant (shown : Text → Nat → Nat → Content) (c : Chart) : List AxisSeen :=
  let b := c.body
  let p := axisPairMeant shown (catAxisTag b.group b.xAxis.isDate) c.axisIds
    (if b.group = .bar then b.yAxis.title else b.xAxis.title)
    (if b.group = .bar then b.xAxis.title else b.yAxis.title)
  if b.group = .pie ∨ b.group = .doughnut then [] else [p.1, p.2]

/-- The kind of chart on the secondary axes. -/
def secondGroup (c : Chart) : ChartGroup :=
  match c.combined with
  | some k => k.group
  | none => c.body.group

/-- Is a series drawn on the secondary axes? -/
def secondUsed (c : Chart) : Bool :=
  c.body.series.any (fun s => s.secondary) || c.combined.any fun k => k.series.any fun s => s.secondary

/-- The secondary axes, if a series is drawn on them. Their kind is that of the combined chart, if there is one. -/
def secondaryAxesMeant (shown : Text → Nat → Nat → Content) (c : Chart) : List AxisSeen :=
  let b := c.body
  let g := secondGroup c
  let p := axisPairMeant shown (catAxisTag g b.xAxis.isDate) c.axis2Ids
    (if g = .bar then b.y2Axis.title else b.x2Axis.title)
    (if g = .bar then b.x2Axis.title else b.y2Axis.title)
  if g = .pie ∨ g = .doughnut ∨ secondUsed c = false then []
  else if g = .scatter ∧ c.combined = none then [p.1, p.2] else [p.2, p.1]

/-- What a chart means. -/
def chartMeant (shown : Text → Nat → Nat → Content) (c : Chart) : ChartSeen where
  title := if c.body.titleHidden then none else titleMeant shown c.body.title
  groups := allGroupsMeant shown c
  axes := primaryAxesMeant shown c ++ secondaryAxesMeant shown c

end Verif.Spec
