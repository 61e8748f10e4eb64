import Verif.Model.Cond
import Verif.Spec.Dxf
import Verif.Spec.Sparkline
/-!
How a reader sees the conditional formats of a worksheet (ECMA-376 part 1, 18.3.1.10, 18.3.1.11, 18.3.1.16, 18.3.1.18,
18.3.1.28, 18.3.1.49; [MS-XLSX] 2.6.5 and following), and what the calls mean.
-/
namespace Verif.Spec

/-- The operators of rules on the value of the cell. -/
inductive OpSeen where
  | equal | notEqual | greaterThan | greaterThanOrEqual | lessThan | lessThanOrEqual | between | notBetween
deriving DecidableEq, Repr

/-- The operators of rules on the text of the cell. -/
inductive TextOpSeen where
  | contains | notContains | beginsWith | endsWith
deriving DecidableEq, Repr

/-- The periods of rules on dates. -/
inductive PeriodSeen where
  | yesterday | today | tomorrow | last7Days | lastWeek | thisWeek | nextWeek | lastMonth | thisMonth | nextMonth
deriving DecidableEq, Repr

/-- A point of a scale: its type and its value. -/
structure PointSeen where
  type : Text
  value : Option Text
deriving DecidableEq, Repr

/-- The look of a data bar in Excel 2010: the points, the colours of the border for positive and negative values (if
there is a border), whether the bar is solid, the direction (`none` is by context, else whether from left to right),
the colour for negative values (`none` is the colour of the bar), the axis position (`none` is automatic, else whether
there is an axis, in the middle), the colour of the axis. -/
structure BarLook where
  min : PointSeen
  max : PointSeen
  border : Option (ColorSeen × ColorSeen)
  solid : Bool
  direction : Option Bool
  negFill : Option ColorSeen
  axis : Option Bool
  axisColor : Option ColorSeen
deriving DecidableEq, Repr

/-- A rule of the extension list. -/
inductive X14Seen where
  | bar (look : BarLook)
  | icons (set : Text) (showValue reverse : Bool) (points : List (PointSeen × Bool)) (custom : Option (List (Text × Nat)))
deriving DecidableEq, Repr

/-- A rule as a reader sees it. -/
inductive RuleSeen where
  | cellIs (op : OpSeen) (formulas : List Text)
  | blanks (negated : Bool) (formula : Text)
  | errors (negated : Bool) (formula : Text)
  | duplicates (unique : Bool)
  | expression (formula : Text)
  | average (above equal : Bool) (deviations : Nat)
  | top (percent bottom : Bool) (rank : Nat)
  | text (op : TextOpSeen) (text formula : Text)
  | period (p : PeriodSeen) (formula : Text)
  | scale (points : List PointSeen) (colors : List ColorSeen)
  | bar (showValue : Bool) (min max : PointSeen) (fill : ColorSeen)
  | icons (set : Text) (showValue reverse : Bool) (points : List (PointSeen × Bool))
deriving DecidableEq, Repr

/-- A rule with its format, its priority and whether it stops. -/
structure CondSeen where
  rule : RuleSeen
  format : Option DxfSeen
  priority : Nat
  stop : Bool
deriving DecidableEq, Repr

/-! ### Reading -/

/-- A boolean attribute. -/
def attrFlag (n : Text) (default : Bool) (as : NodeAttrs) : Option Bool :=
  match as.lookup n with
  | none => some default
  | some v => if v = "1".toList then some true else if v = "0".toList then some false else none

/-- A number attribute that may be missing. -/
def attrNatD (n : Text) (default : Nat) (as : NodeAttrs) : Option Nat :=
  match as.lookup n with
  | none => some default
  | some v => readNat v

/-- The operators by their names. -/
def readOp (s : Text) : Option OpSeen :=
  if s = "equal".toList then some .equal else if s = "notEqual".toList then some .notEqual
  else if s = "greaterThan".toList then some .greaterThan
  else if s = "greaterThanOrEqual".toList then some .greaterThanOrEqual
  else if s = "lessThan".toList then some .lessThan else if s = "lessThanOrEqual".toList then some .lessThanOrEqual
  else if s = "between".toList then some .between else if s = "notBetween".toList then some .notBetween else none

/-- The periods by their names. -/
def readPeriod (s : Text) : Option PeriodSeen :=
  if s = "yesterday".toList then some .yesterday else if s = "today".toList then some .today
  else if s = "tomorrow".toList then some .tomorrow else if s = "last7Days".toList then some .last7Days
  else if s = "lastWeek".toList then some .lastWeek else if s = "thisWeek".toList then some .thisWeek
  else if s = "nextWeek".toList then some .nextWeek else if s = "lastMonth".toList then some .lastMonth
  else if s = "thisMonth".toList then some .thisMonth else if s = "nextMonth".toList then some .nextMonth else none

/-- The formulas of a rule. -/
def readFormulas (ks : List Node) : Option (List Text) := (elems "formula".toList ks).mapM fun e => textOnly e.2

/-- The one formula of a rule. -/
def oneFormula (ks : List Node) : Option Text :=
  match readFormulas ks with
  | some [f] => some f
  | _ => none

/-- A `cfvo` element. -/
def readCfvo (e : NodeAttrs × List Node) : Option PointSeen :=
  (e.1.lookup "type".toList).map fun t => ⟨t, e.1.lookup "val".toList⟩

/-- A `cfvo` element of an icon set, and whether the value itself counts. -/
def readIconCfvo (e : NodeAttrs × List Node) : Option (PointSeen × Bool) :=
  match readCfvo e, attrFlag "gte".toList true e.1 with
  | some p, some g => some (p, g)
  | _, _ => none

/-- A `colorScale` element: as many colours as points. -/
def readScale (ks : List Node) : Option RuleSeen :=
  (child "colorScale".toList ks).bind fun c =>
    match (elems "cfvo".toList c.2).mapM readCfvo, (elems "color".toList c.2).mapM fun e => readColor e.1 with
    | some ps, some cs => if ps.length = cs.length then some (.scale ps cs) else none
    | _, _ => none

/-- A `dataBar` element. -/
def readBar (ks : List Node) : Option RuleSeen :=
  (child "dataBar".toList ks).bind fun c =>
    match attrFlag "showValue".toList true c.1, (elems "cfvo".toList c.2).mapM readCfvo,
      (child "color".toList c.2).bind fun e => readColor e.1 with
    | some s, some [a, b], some f => some (.bar s a b f)
    | _, _, _ => none

/-- An `iconSet` element. -/
def readIcons (ks : List Node) : Option RuleSeen :=
  (child "iconSet".toList ks).bind fun c =>
    match attrFlag "showValue".toList true c.1, attrFlag "reverse".toList false c.1,
      (elems "cfvo".toList c.2).mapM readIconCfvo with
    | some s, some r, some ps => some (.icons ((c.1.lookup "iconSet".toList).getD "3TrafficLights1".toList) s r ps)
    | _, _, _ => none

/-- A rule on the text. -/
def readTextRule (type op : Text) (o : TextOpSeen) (e : NodeAttrs × List Node) : Option RuleSeen :=
  if e.1.lookup "operator".toList = some op ∧ type ≠ [] then
    match e.1.lookup "text".toList, oneFormula e.2 with
    | some t, some f => some (.text o t f)
    | _, _ => none
  else none

/-- What a rule says, by its type. -/
def readRuleKind (type : Text) (e : NodeAttrs × List Node) : Option RuleSeen :=
  if type = "cellIs".toList then
    match (e.1.lookup "operator".toList).bind readOp, readFormulas e.2 with
    | some op, some fs => some (.cellIs op fs)
    | _, _ => none
  else if type = "containsBlanks".toList then (oneFormula e.2).map (.blanks false)
  else if type = "notContainsBlanks".toList then (oneFormula e.2).map (.blanks true)
  else if type = "containsErrors".toList then (oneFormula e.2).map (.errors false)
  else if type = "notContainsErrors".toList then (oneFormula e.2).map (.errors true)
  else if type = "duplicateValues".toList then some (.duplicates false)
  else if type = "uniqueValues".toList then some (.duplicates true)
  else if type = "expression".toList then (oneFormula e.2).map .expression
  else if type = "aboveAverage".toList then
    match attrFlag "aboveAverage".toList true e.1, attrFlag "equalAverage".toList false e.1, attrNatD "stdDev".toList 0 e.1 with
    | some a, some q, some n => some (.average a q n)
    | _, _, _ => none
  else if type = "top10".toList then
    match attrFlag "percent".toList false e.1, attrFlag "bottom".toList false e.1, attrNat "rank".toList e.1 with
    | some p, some b, some n => some (.top p b n)
    | _, _, _ => none
  else if type = "containsText".toList then readTextRule type "containsText".toList .contains e
  else if type = "notContainsText".toList then readTextRule type "notContains".toList .notContains e
  else if type = "beginsWith".toList then readTextRule type "beginsWith".toList .beginsWith e
  else if type = "endsWith".toList then readTextRule type "endsWith".toList .endsWith e
  else if type = "timePeriod".toList then
    match (e.1.lookup "timePeriod".toList).bind readPeriod, oneFormula e.2 with
    | some p, some f => some (.period p f)
    | _, _ => none
  else if type = "colorScale".toList then readScale e.2
  else if type = "dataBar".toList then readBar e.2
  else if type = "iconSet".toList then readIcons e.2
  else none

/-- The format of a rule; `formats` gives the differential formats of the styles part. -/
def readRuleFormat (formats : Nat → Option DxfSeen) (as : NodeAttrs) : Option (Option DxfSeen) :=
  match as.lookup "dxfId".toList with
  | none => some none
  | some v => ((readNat v).bind formats).map some

/-- A `cfRule` element. -/
def readCond (formats : Nat → Option DxfSeen) (e : NodeAttrs × List Node) : Option CondSeen :=
  match (e.1.lookup "type".toList).bind fun t => readRuleKind t e, readRuleFormat formats e.1,
    attrNat "priority".toList e.1, attrFlag "stopIfTrue".toList false e.1 with
  | some r, some f, some p, some s => some ⟨r, f, p, s⟩
  | _, _, _, _ => none

/-- A `conditionalFormatting` element: the ranges, and the rules. -/
def readCondBlock (formats : Nat → Option DxfSeen) (e : NodeAttrs × List Node) : Option (Text × List CondSeen) :=
  match e.1.lookup "sqref".toList, (elems "cfRule".toList e.2).mapM (readCond formats) with
  | some k, some rs => some (k, rs)
  | _, _ => none

/-- The conditional formats of a worksheet. -/
def readConds (formats : Nat → Option DxfSeen) : Node → Option (List (Text × List CondSeen))
  | .elem _ _ ks => (elems "conditionalFormatting".toList ks).mapM (readCondBlock formats)
  | .text _ => none

/-! ### Reading the extension list -/

/-- The id of the extended rule. -/
def readExtId (ks : List Node) : Option Text :=
  (child "extLst".toList ks).bind fun l => (child "ext".toList l.2).bind fun e =>
    (child "x14:id".toList e.2).bind fun i => textOnly i.2

/-- The ids in the rules of a `conditionalFormatting` element, with its ranges. -/
def blockIds (e : NodeAttrs × List Node) : List (Text × Text) :=
  match e.1.lookup "sqref".toList with
  | some k => ((elems "cfRule".toList e.2).filterMap fun r => readExtId r.2).map fun i => (k, i)
  | none => []

/-- The ids of extended rules that the rules of a worksheet name, with the ranges. -/
def readIds : Node → List (Text × Text)
  | .elem _ _ ks => (elems "conditionalFormatting".toList ks).flatMap blockIds
  | .text _ => []

/-- An `x14:cfvo` element. -/
def readX14Cfvo (e : NodeAttrs × List Node) : Option PointSeen :=
  (e.1.lookup "type".toList).map fun t => ⟨t, (child "xm:f".toList e.2).bind fun f => textOnly f.2⟩

/-- An `x14:cfvo` element of an icon set. -/
def readX14IconCfvo (e : NodeAttrs × List Node) : Option (PointSeen × Bool) :=
  match readX14Cfvo e, attrFlag "gte".toList true e.1 with
  | some p, some g => some (p, g)
  | _, _ => none

/-- A colour element. -/
def childColor (t : Text) (ks : List Node) : Option ColorSeen := (child t ks).bind fun e => readColor e.1

/-- The border colours of an `x14:dataBar` element. -/
def readBarBorder (e : NodeAttrs × List Node) : Option (Option (ColorSeen × ColorSeen)) :=
  match attrFlag "border".toList false e.1, attrFlag "negativeBarBorderColorSameAsPositive".toList true e.1 with
  | some false, some _ => some none
  | some true, some true => (childColor "x14:borderColor".toList e.2).map fun c => some (c, c)
  | some true, some false =>
    match childColor "x14:borderColor".toList e.2, childColor "x14:negativeBorderColor".toList e.2 with
    | some c, some d => some (some (c, d))
    | _, _ => none
  | _, _ => none

/-- The colour for negative values. -/
def readNegFill (e : NodeAttrs × List Node) : Option (Option ColorSeen) :=
  match attrFlag "negativeBarColorSameAsPositive".toList false e.1 with
  | some true => some none
  | some false => (childColor "x14:negativeFillColor".toList e.2).map some
  | none => none

/-- The direction. -/
def readDirection (as : NodeAttrs) : Option (Option Bool) :=
  match as.lookup "direction".toList with
  | none => some none
  | some v => if v = "leftToRight".toList then some (some true) else if v = "rightToLeft".toList then some (some false) else none

/-- The position of the axis. -/
def readBarAxis (as : NodeAttrs) : Option (Option Bool) :=
  match as.lookup "axisPosition".toList with
  | none => some none
  | some v => if v = "middle".toList then some (some true) else if v = "none".toList then some (some false) else none

/-- An `x14:dataBar` element. -/
def readLook (e : NodeAttrs × List Node) : Option BarLook :=
  match (elems "x14:cfvo".toList e.2).mapM readX14Cfvo, readBarBorder e, attrFlag "gradient".toList true e.1,
    readDirection e.1, readNegFill e, readBarAxis e.1 with
  | some [a, b], some br, some g, some d, some n, some x => some ⟨a, b, br, !g, d, n, x, childColor "x14:axisColor".toList e.2⟩
  | _, _, _, _, _, _ => none

/-- An `x14:cfIcon` element. -/
def readCfIcon (e : NodeAttrs × List Node) : Option (Text × Nat) :=
  match e.1.lookup "iconSet".toList, attrNat "iconId".toList e.1 with
  | some s, some n => some (s, n)
  | _, _ => none

/-- The custom icons of an `x14:iconSet` element. -/
def readCustom (e : NodeAttrs × List Node) : Option (Option (List (Text × Nat))) :=
  match attrFlag "custom".toList false e.1 with
  | some false => some none
  | some true => ((elems "x14:cfIcon".toList e.2).mapM readCfIcon).map some
  | none => none

/-- An `x14:iconSet` element. -/
def readX14Icons (e : NodeAttrs × List Node) : Option X14Seen :=
  match attrFlag "showValue".toList true e.1, attrFlag "reverse".toList false e.1,
    (elems "x14:cfvo".toList e.2).mapM readX14IconCfvo, readCustom e with
  | some s, some r, some ps, some c => some (.icons ((e.1.lookup "iconSet".toList).getD "3TrafficLights1".toList) s r ps c)
  | _, _, _, _ => none

/-- What an `x14:cfRule` element says. -/
def readX14Kind (type : Text) (ks : List Node) : Option X14Seen :=
  if type = "dataBar".toList then (child "x14:dataBar".toList ks).bind fun e => (readLook e).map .bar
  else if type = "iconSet".toList then (child "x14:iconSet".toList ks).bind readX14Icons
  else none

/-- An `x14:cfRule` element: its id, and what it says. -/
def readX14Rule (e : NodeAttrs × List Node) : Option (Text × X14Seen) :=
  match e.1.lookup "id".toList, (e.1.lookup "type".toList).bind fun t => readX14Kind t e.2 with
  | some i, some r => some (i, r)
  | _, _ => none

/-- An `x14:conditionalFormatting` element: its rules, with the ranges. -/
def readX14Block (e : NodeAttrs × List Node) : Option (List (Text × Text × X14Seen)) :=
  match (child "xm:sqref".toList e.2).bind fun c => textOnly c.2, (elems "x14:cfRule".toList e.2).mapM readX14Rule with
  | some k, some rs => some (rs.map fun r => (k, r))
  | _, _ => none

/-- The rules of an `x14:conditionalFormattings` element, with the ranges. -/
def readX14 : Node → Option (List (Text × Text × X14Seen))
  | .elem _ _ ks => ((elems "x14:conditionalFormatting".toList ks).mapM readX14Block).map List.flatten
  | .text _ => none

/-- The priorities in an `x14:conditionalFormattings` element. -/
def readX14Priorities : Node → List Nat
  | .elem _ _ ks => (elems "x14:conditionalFormatting".toList ks).flatMap fun b =>
      (elems "x14:cfRule".toList b.2).filterMap fun e => attrNat "priority".toList e.1
  | .text _ => []

/-- The extended rules in an `extLst` element: the child of the `ext` element for conditional formats. -/
def readExtConds : Node → Option (List (Text × Text × X14Seen))
  | .elem _ _ ks =>
    match (elems "ext".toList ks).find? fun e =>
        e.1.lookup "uri".toList == some "{78C0D931-6437-407d-A8EE-F0AAD7539E65}".toList with
    | some (_, [n]) => readX14 n
    | _ => none
  | .text _ => none

/-! ### What the calls mean -/

/-- What a text has to be preceded by to be the value of a `cfvo` element. -/
def typeName : CondType → Text
  | .lowest => "min".toList
  | .number => "num".toList
  | .percent => "percent".toList
  | .formula => "formula".toList
  | .percentile => "percentile".toList
  | .highest => "max".toList
  | .automatic => []

/-- A point of a colour scale. -/
def scalePoint (p : CondPoint) : PointSeen := ⟨typeName p.type, some p.value⟩

/-- A point of a data bar for old readers; an automatic one is the minimum or maximum. -/
def barPoint (isMax x14 : Bool) (p : CondPoint) : PointSeen :=
  match p.type with
  | .automatic => ⟨if isMax then "max".toList else "min".toList, none⟩
  | .lowest => ⟨"min".toList, if x14 then none else some p.value⟩
  | .highest => ⟨"max".toList, if x14 then none else some p.value⟩
  | t => ⟨typeName t, some p.value⟩

/-- A point of an icon set: without a type of its own it is a percentage. -/
def iconPoint (i : CondIcon) : PointSeen × Bool :=
  (⟨match i.point.type with
    | .number => "num".toList
    | .formula => "formula".toList
    | .percentile => "percentile".toList
    | _ => "percent".toList, some i.point.value⟩, !i.greaterThan)

/-- The operator of a rule on the value. -/
def opMeant : CondCellRule → OpSeen
  | .cmp .equal _ => .equal
  | .cmp .notEqual _ => .notEqual
  | .cmp .greaterThan _ => .greaterThan
  | .cmp .greaterThanOrEqual _ => .greaterThanOrEqual
  | .cmp .lessThan _ => .lessThan
  | .cmp .lessThanOrEqual _ => .lessThanOrEqual
  | .between _ _ => .between
  | .notBetween _ _ => .notBetween

/-- Its values. -/
def valuesMeant : CondCellRule → List Text
  | .cmp _ v => [v.value]
  | .between a b | .notBetween a b => [a.value, b.value]

/-- The rules on averages: above, equal allowed, number of standard deviations. -/
def averageMeant : CondAverage → RuleSeen
  | .above => .average true false 0
  | .below => .average false false 0
  | .equalOrAbove => .average true true 0
  | .equalOrBelow => .average false true 0
  | .oneAbove => .average true false 1
  | .oneBelow => .average false false 1
  | .twoAbove => .average true false 2
  | .twoBelow => .average false false 2
  | .threeAbove => .average true false 3
  | .threeBelow => .average false false 3

/-- The rules on ranks: percentage, from below, the rank. -/
def topMeant : CondTop → RuleSeen
  | .top n => .top false false n
  | .bottom n => .top false true n
  | .topPercent n => .top true false n
  | .bottomPercent n => .top true true n

/-- The rules on text. -/
def textOpMeant : CondText → TextOpSeen
  | .contains _ => .contains
  | .doesNotContain _ => .notContains
  | .beginsWith _ => .beginsWith
  | .endsWith _ => .endsWith

/-- The periods. -/
def periodMeant : CondDate → PeriodSeen
  | .yesterday => .yesterday
  | .today => .today
  | .tomorrow => .tomorrow
  | .last7Days => .last7Days
  | .lastWeek => .lastWeek
  | .thisWeek => .thisWeek
  | .nextWeek => .nextWeek
  | .lastMonth => .lastMonth
  | .thisMonth => .thisMonth
  | .nextMonth => .nextMonth

/-- The first cell of a range, or list of ranges: up to a blank or colon. -/
def firstCell (range : Text) : Text := range.takeWhile fun c => decide (c ≠ ' ') && decide (c ≠ ':')

/-- The icon sets by the names in the file format (ECMA-376, ST_IconSetType and its extension). -/
def iconSetName (t : CondIcons) : Text :=
  (match t with
  | .threeArrows => "3Arrows"
  | .threeArrowsGray => "3ArrowsGray"
  | .threeFlags => "3Flags"
  | .threeTrafficLights => "3TrafficLights1"
  | .threeTrafficLightsWithRim => "3TrafficLights2"
  | .threeSigns => "3Signs"
  | .threeStars => "3Stars"
  | .threeTriangles => "3Triangles"
  | .threeSymbolsCircled => "3Symbols"
  | .threeSymbols => "3Symbols2"
  | .fourArrows => "4Arrows"
  | .fourArrowsGray => "4ArrowsGray"
  | .fourRedToBlack => "4RedToBlack"
  | .fourHistograms => "4Rating"
  | .fourTrafficLights => "4TrafficLights"
  | .fiveArrows => "5Arrows"
  | .fiveBoxes => "5Boxes"
  | .fiveArrowsGray => "5ArrowsGray"
  | .fiveHistograms => "5Rating"
  | .fiveQuadrants => "5Quarters").toList

/-- The number of icons of a set: the first character of its name. -/
def iconSetCount (t : CondIcons) : Nat :=
  match (iconSetName t).head? with
  | some c => c.toNat - 48
  | none => 0

/-- What a conditional format means on a range. What the formulas of the rules on blanks, errors, texts and dates mean
is another matter (C56). -/
def ruleMeant (k : CondKind) (range : Text) : Option RuleSeen :=
  match k with
  | .cell r => r.map fun r => .cellIs (opMeant r) (valuesMeant r)
  | .blank inv => some (.blanks inv (blankFormula inv (firstCell range)))
  | .error inv => some (.errors inv (errorFormula inv (firstCell range)))
  | .duplicate inv => some (.duplicates inv)
  | .formula f => some (.expression f)
  | .average r => some (averageMeant r)
  | .top r => some (topMeant r)
  | .text r => r.map fun r => .text (textOpMeant r) r.text (r.formula (firstCell range))
  | .date r => some (.period (periodMeant r) (r.formula (firstCell range)))
  | .scale ps cs => some (.scale (ps.map scalePoint) (cs.map colorMeant))
  | .bar b => some (.bar (!b.barOnly) (barPoint false b.x14 b.min) (barPoint true b.x14 b.max) (colorMeant b.fill))
  | .icons s => some (.icons (iconSetName s.type) (!s.iconOnly) s.reversed (s.icons.map iconPoint))

/-- The kinds of rules that have a format. -/
def hasFormat : CondKind → Bool
  | .scale _ _ | .bar _ | .icons _ => false
  | _ => true

/-- The format of a rule. -/
def formatMeantOf (c : CondFmt) : Option DxfSeen := if hasFormat c.kind then c.format.map dxfMeant else none

/-- A call: a conditional format on a range. -/
abbrev FmtCall := Dims × CondFmt

/-- The conditional formats among the calls on a worksheet. -/
def condCalls (ops : List RuleOp) : List FmtCall :=
  ops.filterMap fun o => match o with
    | .cond d c => some (d, c)
    | .tableFormat _ => none

/-- A call that is accepted: the range is in the grid and the rule is complete and in its limits. -/
def CondLegal (p : FmtCall) : Prop :=
  (p.1.firstRow ≤ p.1.lastRow ∧ p.1.firstCol ≤ p.1.lastCol ∧ p.1.lastRow < 1048576 ∧ p.1.lastCol < 16384) ∧
  match p.2.kind with
  | .cell r => r ≠ none
  | .formula f => f ≠ []
  | .top (.top n) | .top (.bottom n) => 1 ≤ n ∧ n ≤ 1000
  | .top (.topPercent n) | .top (.bottomPercent n) => 1 ≤ n ∧ n ≤ 100
  | .text r => r ≠ none
  | .icons s => s.icons.length = iconSetCount s.type
  | _ => True

instance (p : FmtCall) : Decidable (CondLegal p) := by
  unfold CondLegal
  exact @instDecidableAnd _ _ _ (by split <;> infer_instance)

/-- The range of a call: the one of the call, or the list of ranges set instead. -/
def callRange (p : FmtCall) : Text :=
  if p.2.multi = [] then cellRange p.1.firstRow p.1.firstCol p.1.lastRow p.1.lastCol else p.2.multi

/-- The values of a list without repetition, in the order of their first occurrences. -/
def firsts (l : List Text) : List Text := l.foldl (fun acc x => if x ∈ acc then acc else acc ++ [x]) []

/-- The calls by range: the ranges in the order of first use, each with its calls in order. -/
def byRange (calls : List FmtCall) : List (Text × List FmtCall) :=
  (firsts (calls.map callRange)).map fun k => (k, calls.filter fun p => callRange p = k)

/-- Numbering the calls of all ranges. -/
def numbered {α : Type} : Nat → List (Text × List α) → List (Text × List (Nat × α))
  | _, [] => []
  | n, (k, l) :: rest => (k, (List.range' n l.length).zip l) :: numbered (n + l.length) rest

/-- The point of a data bar in Excel 2010. -/
def lookPoint (isMax : Bool) (p : CondPoint) : PointSeen :=
  match p.type with
  | .automatic => ⟨if isMax then "autoMax".toList else "autoMin".toList, none⟩
  | .lowest => ⟨"min".toList, none⟩
  | .highest => ⟨"max".toList, none⟩
  | t => ⟨typeName t, some p.value⟩

/-- The look of a data bar. -/
def lookMeant (b : CondBar) : BarLook where
  min := lookPoint false b.min
  max := lookPoint true b.max
  border := if b.borderOff then none else some (colorMeant b.border, colorMeant b.negBorder)
  solid := b.solid
  direction := b.direction
  negFill := if b.fill = b.negFill then none else some (colorMeant b.negFill)
  axis := b.axisPosition
  axisColor := if b.axisPosition = some false then none else some (colorMeant b.axis)

/-- The icon in a place of an icon set: none, one of another set, or the one of the set. -/
def customIcon (set : CondIcons) (n : Nat) (i : CondIcon) : Text × Nat :=
  if i.noIcon then ("NoIcons".toList, 0)
  else match i.icon with
    | some (t, k) => (iconSetName t, k)
    | none => (iconSetName set, n)

/-- The extended rule of a conditional format. -/
def x14Meant : CondKind → Option X14Seen
  | .bar b => some (.bar (lookMeant b))
  | .icons s => some (.icons (iconSetName s.type) (!s.iconOnly) s.reversed (s.icons.map iconPoint)
      (if s.custom then some (s.icons.zipIdx.map fun p => customIcon s.type p.2 p.1) else none))
  | _ => none

/-- The rule of a call with its number. -/
def condSeenOf (range : Text) (p : Nat × FmtCall) : Option CondSeen :=
  (ruleMeant p.2.2.kind range).map fun r => ⟨r, formatMeantOf p.2.2, p.1, p.2.2.stop⟩

/-- A range with its numbered calls as a reader should see it: without the rules that are only in the extension list,
and without the range if there are no other rules. -/
def blockMeant (b : Text × List (Nat × FmtCall)) : Option (Text × List CondSeen) :=
  match b.2.filter fun p => !p.2.2.kind.onlyX14 with
  | [] => none
  | l => some (b.1, l.filterMap (condSeenOf b.1))

/-- The accepted calls. -/
def legalCalls (ops : List RuleOp) : List FmtCall := (condCalls ops).filter fun p => decide (CondLegal p)

/-- What a sequence of calls means: the ranges in the order of first use, each with its rules in the order of the
calls; the priorities are 1, 2, 3, ... in that order. -/
def condsMeant (ops : List RuleOp) : List (Text × List CondSeen) :=
  (numbered 1 (byRange (legalCalls ops))).filterMap blockMeant

/-- The accepted calls with extended rules, by range, with the ranges. -/
def extCalls (ops : List RuleOp) : List (Text × FmtCall) :=
  (byRange (legalCalls ops)).flatMap fun b => (b.2.filter fun p => p.2.kind.hasX14).map fun p => (b.1, p)

/-- What a reader should find for a call with an extended rule, with its id. -/
def extSeen (q : (Text × FmtCall) × Text) : Option (Text × Text × X14Seen) :=
  (x14Meant q.1.2.2.kind).map fun m => (q.1.1, q.2, m)

/-- The formats that the accepted calls give, in the order of the calls. -/
def opFormats (ops : List RuleOp) : List Format :=
  ops.flatMap fun o => match o with
    | .cond d c => if CondLegal (d, c) then c.format.toList else []
    | .tableFormat f => [f]

/-! ### What can be written -/

/-- A colour other than a theme colour, automatic or default: `write_color` writes the others as black. -/
def plainColor (c : Color) : Bool :=
  match c with
  | .theme _ _ | .default | .automatic => false
  | .rgb n => decide (n ≤ 0xFFFFFF)
  | _ => true

/-- The texts of a rule. -/
def kindTexts : CondKind → List Text
  | .cell (some r) => valuesMeant r
  | .formula f => [f]
  | .text (some r) => [r.text]
  | .scale ps _ => ps.map (·.value)
  | .bar b => [b.min.value, b.max.value]
  | .icons s => s.icons.map (·.point.value)
  | _ => []

/-- The colours of a rule. -/
def kindColors : CondKind → List Color
  | .scale _ cs => cs
  | .bar b => [b.fill, b.border, b.negFill, b.negBorder, b.axis]
  | _ => []

/-- The setters of colour scales keep two or three points with as many colours, none of them automatic. -/
def scaleOk : CondKind → Bool
  | .scale ps cs => decide (ps.length = cs.length) && ps.all fun p => decide (p.type ≠ .automatic)
  | _ => true

/-- A conditional format that can be written: its texts are legal in XML attributes, its colours are plain. -/
structure CondOk (c : CondFmt) : Prop where
  multi : attrSafe c.multi = true
  texts : ∀ t ∈ kindTexts c.kind, attrSafe t = true
  colors : ∀ x ∈ kindColors c.kind, plainColor x = true
  scale : scaleOk c.kind = true

/-- The extended rules that are written as they were set (the others: F103, F104, F105). -/
def extOk : CondKind → Bool
  | .bar b => b.borderOff || decide (b.fill ≠ b.negBorder) || decide (b.border = b.negBorder)
  | .icons s => !s.iconOnly && !s.reversed && s.icons.all fun i => !i.greaterThan &&
      decide (i.point.type ∈ [CondType.number, .percent, .formula, .percentile])
  | _ => true

end Verif.Spec
