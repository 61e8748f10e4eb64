import Verif.Model.Dxf
import Verif.Model.Notes
import Verif.Model.Sparkline
/-!
Conditional formats: `add_conditional_format` (/repo/src/worksheet.rs:9008-9077), the rules
(/repo/src/conditional_format.rs) and the `conditionalFormatting` and `x14:conditionalFormatting` elements
(/repo/src/worksheet.rs:17917-18011).
-/
namespace Verif

/-! ### Rules -/

/-- `ConditionalFormatValue`, /repo/src/conditional_format.rs:6600-6603. -/
structure CondValue where
  value : Str
  isString : Bool := false
deriving DecidableEq, Repr

/-- `quote_string`, /repo/src/conditional_format.rs:6615-6631. -/
def CondValue.quoteString (v : CondValue) : CondValue :=
  if !v.isString || v.value.isEmpty then v
  else if v.value.head? = some '"' && v.value.getLast? = some '"' then v
  else { v with value := '"' :: v.value.flatMap (fun c => if c = '"' then ['"', '"'] else [c]) ++ ['"'] }

/-- The operators of `ConditionalFormatCellRule` with one value. -/
inductive CondCmp where
  | equal | notEqual | greaterThan | greaterThanOrEqual | lessThan | lessThanOrEqual
deriving DecidableEq, Repr

/-- `ConditionalFormatCellRule`, /repo/src/conditional_format.rs:6762-6786. -/
inductive CondCellRule where
  | cmp (op : CondCmp) (v : CondValue)
  | between (a b : CondValue)
  | notBetween (a b : CondValue)
deriving DecidableEq, Repr

/-- `ConditionalFormatCell::set_rule`, /repo/src/conditional_format.rs:1324-1388: the values are quoted. -/
def CondCellRule.set : CondCellRule → CondCellRule
  | .cmp op v => .cmp op v.quoteString
  | .between a b => .between a.quoteString b.quoteString
  | .notBetween a b => .notBetween a.quoteString b.quoteString

/-- `ConditionalFormatAverageRule`, /repo/src/conditional_format.rs:6834-6873. -/
inductive CondAverage where
  | above | below | equalOrAbove | equalOrBelow | oneAbove | oneBelow | twoAbove | twoBelow | threeAbove | threeBelow
deriving DecidableEq, Repr

/-- `ConditionalFormatTopRule`, /repo/src/conditional_format.rs:6812-6824. -/
inductive CondTop where
  | top (n : Nat) | bottom (n : Nat) | topPercent (n : Nat) | bottomPercent (n : Nat)
deriving DecidableEq, Repr

/-- `ConditionalFormatTextRule`, /repo/src/conditional_format.rs:6884-6896. -/
inductive CondText where
  | contains (t : Str) | doesNotContain (t : Str) | beginsWith (t : Str) | endsWith (t : Str)
deriving DecidableEq, Repr

/-- `ConditionalFormatDateRule`, /repo/src/conditional_format.rs:6917-6957. -/
inductive CondDate where
  | yesterday | today | tomorrow | last7Days | lastWeek | thisWeek | nextWeek | lastMonth | thisMonth | nextMonth
deriving DecidableEq, Repr

/-- `ConditionalFormatType`, /repo/src/conditional_format.rs (6976 and following). -/
inductive CondType where
  | automatic | lowest | number | percent | formula | percentile | highest
deriving DecidableEq, Repr

/-- `ConditionalFormatIconType`. -/
inductive CondIcons where
  | threeArrows | threeArrowsGray | threeFlags | threeTrafficLights | threeTrafficLightsWithRim | threeSigns
  | threeStars | threeTriangles | threeSymbolsCircled | threeSymbols
  | fourArrows | fourArrowsGray | fourRedToBlack | fourHistograms | fourTrafficLights
  | fiveArrows | fiveBoxes | fiveArrowsGray | fiveHistograms | fiveQuadrants
deriving DecidableEq, Repr

/-- The numbers in the matches over the icon types, /repo/src/conditional_format.rs:6060-6096. -/
def CondIcons.count : CondIcons → Nat
  | .threeArrows | .threeArrowsGray | .threeFlags | .threeTrafficLights | .threeTrafficLightsWithRim | .threeSigns
  | .threeStars | .threeTriangles | .threeSymbolsCircled | .threeSymbols => 3
  | .fourArrows | .fourArrowsGray | .fourRedToBlack | .fourHistograms | .fourTrafficLights => 4
  | .fiveArrows | .fiveBoxes | .fiveArrowsGray | .fiveHistograms | .fiveQuadrants => 5

/-- `to_string`, /repo/src/conditional_format.rs:7346-7371. -/
def CondIcons.name : CondIcons → Str
  | .fiveBoxes => "5Boxes".toList
  | .threeFlags => "3Flags".toList
  | .threeSigns => "3Signs".toList
  | .threeStars => "3Stars".toList
  | .fourArrows => "4Arrows".toList
  | .fiveArrows => "5Arrows".toList
  | .threeArrows => "3Arrows".toList
  | .threeSymbols => "3Symbols2".toList
  | .fiveQuadrants => "5Quarters".toList
  | .threeTriangles => "3Triangles".toList
  | .fourArrowsGray => "4ArrowsGray".toList
  | .fourRedToBlack => "4RedToBlack".toList
  | .fourHistograms => "4Rating".toList
  | .fiveArrowsGray => "5ArrowsGray".toList
  | .fiveHistograms => "5Rating".toList
  | .threeArrowsGray => "3ArrowsGray".toList
  | .fourTrafficLights => "4TrafficLights".toList
  | .threeTrafficLights => "3TrafficLights1".toList
  | .threeSymbolsCircled => "3Symbols".toList
  | .threeTrafficLightsWithRim => "3TrafficLights2".toList

/-- A minimum, midpoint, maximum: the type and the text of the value. -/
structure CondPoint where
  type : CondType
  value : Str
deriving DecidableEq, Repr

/-- `ConditionalFormatDataBar`, /repo/src/conditional_format.rs:4420-4441, without the common fields. -/
structure CondBar where
  min : CondPoint := ⟨.automatic, "0".toList⟩
  max : CondPoint := ⟨.automatic, "0".toList⟩
  fill : Color := .rgb 0x638EC6
  border : Color := .rgb 0x638EC6
  negFill : Color := .rgb 0xFF0000
  negBorder : Color := .rgb 0xFF0000
  axis : Color := .rgb 0
  borderOff : Bool := false
  solid : Bool := false
  barOnly : Bool := false
  /-- `none` is by context, else left to right. -/
  direction : Option Bool := none
  /-- `none` is automatic, else midpoint (`true`) or no axis. -/
  axisPosition : Option Bool := none
  x14 : Bool := true
deriving DecidableEq

/-- `ConditionalFormatCustomIcon`, /repo/src/conditional_format.rs:6341-6349. -/
structure CondIcon where
  icon : Option (CondIcons × Nat) := none
  noIcon : Bool := false
  greaterThan : Bool := false
  point : CondPoint := ⟨.percent, "0".toList⟩
deriving DecidableEq, Repr

/-- `ConditionalFormatIconSet`, /repo/src/conditional_format.rs:5705-5717, without the common fields. -/
structure CondIconSet where
  type : CondIcons := .threeTrafficLights
  reversed : Bool := false
  iconOnly : Bool := false
  custom : Bool := false
  icons : List CondIcon := []
  x14 : Bool := false
deriving DecidableEq, Repr

/-- The types that implement the trait `ConditionalFormat`, with their fields (without the common ones). The colour
scales with two and three colours are one case here. -/
inductive CondKind where
  | cell (r : Option CondCellRule)
  | blank (inverted : Bool)
  | error (inverted : Bool)
  | duplicate (inverted : Bool)
  | formula (f : Str)
  | average (r : CondAverage)
  | top (r : CondTop)
  | text (r : Option CondText)
  | date (r : CondDate)
  | scale (points : List CondPoint) (colors : List Color)
  | bar (b : CondBar)
  | icons (s : CondIconSet)

/-- A conditional format with the common fields, /repo/src/conditional_format.rs:7376-7465. -/
structure CondFmt where
  kind : CondKind
  stop : Bool := false
  /-- The text of `set_multi_range` after the replacements. -/
  multi : Str := []
  format : Option Format := none

/-- `set_multi_range`, /repo/src/conditional_format.rs:7403-7406. -/
def CondFmt.setMultiRange (c : CondFmt) (range : Str) : CondFmt :=
  { c with multi := (range.filter (· ≠ '$')).map fun x => if x = ',' then ' ' else x }

/-- `validate` of the types. -/
def CondKind.valid : CondKind → Bool
  | .cell r => r.isSome
  | .formula f => !f.isEmpty
  | .top (.top n) | .top (.bottom n) => 1 ≤ n && n ≤ 1000
  | .top (.topPercent n) | .top (.bottomPercent n) => 1 ≤ n && n ≤ 100
  | .text r => r.isSome
  | .icons s => s.icons.length = s.type.count
  | _ => true

/-- `has_x14_extensions`. -/
def CondKind.hasX14 : CondKind → Bool
  | .bar b => b.x14
  | .icons s => s.x14
  | _ => false

/-- `has_x14_only`. -/
def CondKind.onlyX14 : CondKind → Bool
  | .icons s => s.x14
  | _ => false

/-! ### Writing the rules -/

/-- `range_to_anchor`, /repo/src/conditional_format.rs:7542-7556. -/
def rangeToAnchor (range : Str) : Str :=
  (range.takeWhile (· ≠ ' ')).takeWhile (· ≠ ':')

/-- `to_string`, /repo/src/conditional_format.rs:6788-6801. -/
def CondCmp.name : CondCmp → Str
  | .equal => "equal".toList
  | .notEqual => "notEqual".toList
  | .greaterThan => "greaterThan".toList
  | .greaterThanOrEqual => "greaterThanOrEqual".toList
  | .lessThan => "lessThan".toList
  | .lessThanOrEqual => "lessThanOrEqual".toList

/-- /repo/src/conditional_format.rs:6788-6801 for the rule. -/
def CondCellRule.name : CondCellRule → Str
  | .cmp op _ => op.name
  | .between _ _ => "between".toList
  | .notBetween _ _ => "notBetween".toList

/-- The formulas of a cell rule, /repo/src/conditional_format.rs:1441-1455. -/
def CondCellRule.formulas : CondCellRule → List Str
  | .cmp _ v => [v.value]
  | .between a b => [a.value, b.value]
  | .notBetween a b => [a.value, b.value]

/-- /repo/src/conditional_format.rs:2512-2558. -/
def CondAverage.attrs : CondAverage → Attrs
  | .above => []
  | .below => [("aboveAverage".toList, "0".toList)]
  | .equalOrAbove => [("equalAverage".toList, "1".toList)]
  | .equalOrBelow => [("aboveAverage".toList, "0".toList), ("equalAverage".toList, "1".toList)]
  | .oneAbove => [("stdDev".toList, "1".toList)]
  | .oneBelow => [("aboveAverage".toList, "0".toList), ("stdDev".toList, "1".toList)]
  | .twoAbove => [("stdDev".toList, "2".toList)]
  | .twoBelow => [("aboveAverage".toList, "0".toList), ("stdDev".toList, "2".toList)]
  | .threeAbove => [("stdDev".toList, "3".toList)]
  | .threeBelow => [("aboveAverage".toList, "0".toList), ("stdDev".toList, "3".toList)]

/-- /repo/src/conditional_format.rs:2773-2797. -/
def CondTop.attrs : CondTop → Attrs
  | .top n => [("rank".toList, showNat n)]
  | .bottom n => [("bottom".toList, "1".toList), ("rank".toList, showNat n)]
  | .topPercent n => [("percent".toList, "1".toList), ("rank".toList, showNat n)]
  | .bottomPercent n => [("percent".toList, "1".toList), ("bottom".toList, "1".toList), ("rank".toList, showNat n)]

/-- The text of a text rule. -/
def CondText.text : CondText → Str
  | .contains t | .doesNotContain t | .beginsWith t | .endsWith t => t

/-- `text.len()`: the number of bytes. -/
def byteLen (t : Str) : Nat := (t.map Char.utf8Size).sum

/-- The types of the text rules, /repo/src/conditional_format.rs:3006-3025. -/
def CondText.type : CondText → Str
  | .contains _ => "containsText".toList
  | .doesNotContain _ => "notContainsText".toList
  | .beginsWith _ => "beginsWith".toList
  | .endsWith _ => "endsWith".toList

/-- `to_string`, /repo/src/conditional_format.rs:6898-6907. -/
def CondText.name : CondText → Str
  | .contains _ => "containsText".toList
  | .doesNotContain _ => "notContains".toList
  | .beginsWith _ => "beginsWith".toList
  | .endsWith _ => "endsWith".toList

/-- The formulas of the text rules, /repo/src/conditional_format.rs:3006-3025. -/
def CondText.formula (anchor : Str) : CondText → Str
  | .contains t => "NOT(ISERROR(SEARCH(\"".toList ++ t ++ "\",".toList ++ anchor ++ ")))".toList
  | .doesNotContain t => "ISERROR(SEARCH(\"".toList ++ t ++ "\",".toList ++ anchor ++ "))".toList
  | .beginsWith t =>
    "LEFT(".toList ++ anchor ++ ",".toList ++ showNat (byteLen t) ++ ")=\"".toList ++ t ++ "\"".toList
  | .endsWith t =>
    "RIGHT(".toList ++ anchor ++ ",".toList ++ showNat (byteLen t) ++ ")=\"".toList ++ t ++ "\"".toList

/-- `to_string`, /repo/src/conditional_format.rs:6959-6974. -/
def CondDate.name : CondDate → Str
  | .today => "today".toList
  | .tomorrow => "tomorrow".toList
  | .lastWeek => "lastWeek".toList
  | .nextWeek => "nextWeek".toList
  | .thisWeek => "thisWeek".toList
  | .last7Days => "last7Days".toList
  | .lastMonth => "lastMonth".toList
  | .nextMonth => "nextMonth".toList
  | .thisMonth => "thisMonth".toList
  | .yesterday => "yesterday".toList

/-- The formulas of the date rules, /repo/src/conditional_format.rs:3263-3300. -/
def CondDate.formula (a : Str) : CondDate → Str
  | .yesterday => "FLOOR(".toList ++ a ++ ",1)=TODAY()-1".toList
  | .today => "FLOOR(".toList ++ a ++ ",1)=TODAY()".toList
  | .tomorrow => "FLOOR(".toList ++ a ++ ",1)=TODAY()+1".toList
  | .last7Days => "AND(TODAY()-FLOOR(".toList ++ a ++ ",1)<=6,FLOOR(".toList ++ a ++ ",1)<=TODAY())".toList
  | .lastWeek => "AND(TODAY()-ROUNDDOWN(".toList ++ a ++ ",0)>=(WEEKDAY(TODAY())),TODAY()-ROUNDDOWN(".toList ++ a ++
      ",0)<(WEEKDAY(TODAY())+7))".toList
  | .thisWeek => "AND(TODAY()-ROUNDDOWN(".toList ++ a ++ ",0)<=WEEKDAY(TODAY())-1,ROUNDDOWN(".toList ++ a ++
      ",0)-TODAY()<=7-WEEKDAY(TODAY()))".toList
  | .nextWeek => "AND(ROUNDDOWN(".toList ++ a ++ ",0)-TODAY()>(7-WEEKDAY(TODAY())),ROUNDDOWN(".toList ++ a ++
      ",0)-TODAY()<(15-WEEKDAY(TODAY())))".toList
  | .lastMonth => "AND(MONTH(".toList ++ a ++ ")=MONTH(TODAY())-1,OR(YEAR(".toList ++ a ++ ")=YEAR(TODAY()),AND(MONTH(".toList ++
      a ++ ")=1,YEAR(".toList ++ a ++ ")=YEAR(TODAY())-1)))".toList
  | .thisMonth => "AND(MONTH(".toList ++ a ++ ")=MONTH(TODAY()),YEAR(".toList ++ a ++ ")=YEAR(TODAY()))".toList
  | .nextMonth => "AND(MONTH(".toList ++ a ++ ")=MONTH(TODAY())+1,OR(YEAR(".toList ++ a ++ ")=YEAR(TODAY()),AND(MONTH(".toList ++
      a ++ ")=12,YEAR(".toList ++ a ++ ")=YEAR(TODAY())+1)))".toList

/-- The formula of a blank rule, /repo/src/conditional_format.rs:1641-1645. -/
def blankFormula (inverted : Bool) (a : Str) : Str :=
  if inverted then "LEN(TRIM(".toList ++ a ++ "))>0".toList else "LEN(TRIM(".toList ++ a ++ "))=0".toList

/-- The formula of an error rule, /repo/src/conditional_format.rs:1842-1846. -/
def errorFormula (inverted : Bool) (a : Str) : Str :=
  if inverted then "NOT(ISERROR(".toList ++ a ++ "))".toList else "ISERROR(".toList ++ a ++ ")".toList

/-- A `formula` element. -/
def formulaTree (f : Str) : Tree := .data "formula".toList f []

/-- The attribute `type` of `cfvo` elements of scales, /repo/src/conditional_format.rs:3742-3765. -/
def CondType.scaleAttrs : CondType → Attrs
  | .lowest => [("type".toList, "min".toList)]
  | .number => [("type".toList, "num".toList)]
  | .percent => [("type".toList, "percent".toList)]
  | .formula => [("type".toList, "formula".toList)]
  | .percentile => [("type".toList, "percentile".toList)]
  | .highest => [("type".toList, "max".toList)]
  | .automatic => []

/-- `write_type` of the colour scales, /repo/src/conditional_format.rs:3742-3770, 4279-4307. -/
def scalePointTree (p : CondPoint) : Tree :=
  .empty "cfvo".toList (p.type.scaleAttrs ++ [("val".toList, p.value)])

/-- `write_color`, /repo/src/conditional_format.rs:3773-3777, 5365-5369. -/
def condColorTree (tag : Str) (c : Color) : Tree := .empty tag [("rgb".toList, c.argbHexValue)]

/-- `write_type` of the data bars, /repo/src/conditional_format.rs:5314-5362. -/
def barPointTree (p : CondPoint) (x14 isMax : Bool) : Tree :=
  .empty "cfvo".toList (match p.type with
    | .automatic => [("type".toList, if isMax then "max".toList else "min".toList)]
    | .lowest => ("type".toList, "min".toList) :: if x14 then [] else [("val".toList, p.value)]
    | .number => [("type".toList, "num".toList), ("val".toList, p.value)]
    | .percent => [("type".toList, "percent".toList), ("val".toList, p.value)]
    | .formula => [("type".toList, "formula".toList), ("val".toList, p.value)]
    | .percentile => [("type".toList, "percentile".toList), ("val".toList, p.value)]
    | .highest => ("type".toList, "max".toList) :: if x14 then [] else [("val".toList, p.value)])

/-- `write_extension_list`, /repo/src/conditional_format.rs:5372-5387. -/
def barExtTree (guid : Str) : Tree :=
  .node "extLst".toList []
    [.node "ext".toList (extAttrs "{B025F937-C7B1-47D3-B67F-A62EFF666E3E}".toList) [.data "x14:id".toList guid []]]

/-- `write_type` of the icon sets, /repo/src/conditional_format.rs:6204-6231. -/
def iconPointTree (i : CondIcon) : Tree :=
  .empty "cfvo".toList ((match i.point.type with
      | .number => [("type".toList, "num".toList)]
      | .formula => [("type".toList, "formula".toList)]
      | .percentile => [("type".toList, "percentile".toList)]
      | _ => [("type".toList, "percent".toList)]) ++ [("val".toList, i.point.value)] ++
    (if i.greaterThan then [("gte".toList, "0".toList)] else []))

/-- The attributes that all rules have: the type, the format, the priority, the stop. The types that have no format
ignore it. -/
def ruleAttrs (type : Str) (dxf : Option Nat) (priority : Nat) (stop : Bool) : Attrs :=
  ("type".toList, type) :: ((match dxf with | some i => [("dxfId".toList, showNat i)] | none => []) ++
    [("priority".toList, showNat priority)] ++ (if stop then [("stopIfTrue".toList, "1".toList)] else []))

/-- `rule` of the types: cell 1409-1460, blank 1609-1653, error 1810-1854, duplicate 2012-2045, formula 2295-2327,
average 2488-2564, top 2749-2803, text 2990-3057, date 3251-3323, scales 3706-3739 and 4241-4276, bar 5252-5311, icons
6102-6147 of /repo/src/conditional_format.rs. `none` is the empty text of a missing rule. -/
def CondKind.rule (k : CondKind) (dxf : Option Nat) (priority : Nat) (stop : Bool) (range guid : Str) : Option Tree :=
  match k with
  | .cell none => none
  | .cell (some r) => some (.node "cfRule".toList
      (ruleAttrs "cellIs".toList dxf priority stop ++ [("operator".toList, r.name)]) (r.formulas.map formulaTree))
  | .blank inv => some (.node "cfRule".toList
      (ruleAttrs (if inv then "notContainsBlanks".toList else "containsBlanks".toList) dxf priority stop)
      [formulaTree (blankFormula inv (rangeToAnchor range))])
  | .error inv => some (.node "cfRule".toList
      (ruleAttrs (if inv then "notContainsErrors".toList else "containsErrors".toList) dxf priority stop)
      [formulaTree (errorFormula inv (rangeToAnchor range))])
  | .duplicate inv => some (.empty "cfRule".toList
      (ruleAttrs (if inv then "uniqueValues".toList else "duplicateValues".toList) dxf priority stop))
  | .formula f => some (.node "cfRule".toList (ruleAttrs "expression".toList dxf priority stop) [formulaTree f])
  | .average r => some (.empty "cfRule".toList (ruleAttrs "aboveAverage".toList dxf priority stop ++ r.attrs))
  | .top r => some (.empty "cfRule".toList (ruleAttrs "top10".toList dxf priority stop ++ r.attrs))
  | .text none => none
  | .text (some r) => some (.node "cfRule".toList
      (ruleAttrs r.type dxf priority stop ++ [("operator".toList, r.name), ("text".toList, r.text)])
      [formulaTree (r.formula (rangeToAnchor range))])
  | .date r => some (.node "cfRule".toList
      (ruleAttrs "timePeriod".toList dxf priority stop ++ [("timePeriod".toList, r.name)])
      [formulaTree (r.formula (rangeToAnchor range))])
  | .scale ps cs => some (.node "cfRule".toList (ruleAttrs "colorScale".toList none priority stop)
      [.node "colorScale".toList [] (ps.map scalePointTree ++ cs.map (condColorTree "color".toList))])
  | .bar b => some (.node "cfRule".toList (ruleAttrs "dataBar".toList none priority stop)
      (.node "dataBar".toList (if b.barOnly then [("showValue".toList, "0".toList)] else [])
          [barPointTree b.min b.x14 false, barPointTree b.max b.x14 true, condColorTree "color".toList b.fill] ::
        if b.x14 then [barExtTree guid] else []))
  | .icons s => some (.node "cfRule".toList (ruleAttrs "iconSet".toList none priority stop)
      [.node "iconSet".toList
        ((if s.type = .threeTrafficLights then [] else [("iconSet".toList, s.type.name)]) ++
          (if s.iconOnly then [("showValue".toList, "0".toList)] else []) ++
          (if s.reversed then [("reverse".toList, "1".toList)] else []))
        (s.icons.map iconPointTree)])

/-! ### Extended rules -/

/-- `write_x14_type` of the data bars, /repo/src/conditional_format.rs:5480-5530. -/
def x14BarPointTree (p : CondPoint) (isMax : Bool) : Tree :=
  match p.type with
  | .automatic => .empty "x14:cfvo".toList [("type".toList, if isMax then "autoMax".toList else "autoMin".toList)]
  | .lowest => .empty "x14:cfvo".toList [("type".toList, "min".toList)]
  | .highest => .empty "x14:cfvo".toList [("type".toList, "max".toList)]
  | .number => .node "x14:cfvo".toList [("type".toList, "num".toList)] [.data "xm:f".toList p.value []]
  | .percent => .node "x14:cfvo".toList [("type".toList, "percent".toList)] [.data "xm:f".toList p.value []]
  | .formula => .node "x14:cfvo".toList [("type".toList, "formula".toList)] [.data "xm:f".toList p.value []]
  | .percentile => .node "x14:cfvo".toList [("type".toList, "percentile".toList)] [.data "xm:f".toList p.value []]

/-- The attributes of `write_data_bar`, /repo/src/conditional_format.rs:5434-5477. -/
def x14BarAttrs (b : CondBar) : Attrs :=
  [("minLength".toList, "0".toList), ("maxLength".toList, "100".toList)] ++
    (if b.borderOff then [] else [("border".toList, "1".toList)]) ++
    (if b.solid then [("gradient".toList, "0".toList)] else []) ++
    (match b.direction with
      | some true => [("direction".toList, "leftToRight".toList)]
      | some false => [("direction".toList, "rightToLeft".toList)]
      | none => []) ++
    (if b.fill = b.negFill then [("negativeBarColorSameAsPositive".toList, "1".toList)] else []) ++
    (if !b.borderOff && decide (b.fill ≠ b.negBorder) then [("negativeBarBorderColorSameAsPositive".toList, "0".toList)]
     else []) ++
    (match b.axisPosition with
      | some true => [("axisPosition".toList, "middle".toList)]
      | some false => [("axisPosition".toList, "none".toList)]
      | none => [])

/-- The children of `x14:dataBar`, /repo/src/conditional_format.rs:5398-5425. -/
def x14BarChildren (b : CondBar) : List Tree :=
  [x14BarPointTree b.min false, x14BarPointTree b.max true] ++
    (if b.borderOff then [] else [condColorTree "x14:borderColor".toList b.border]) ++
    (if b.fill ≠ b.negFill then [condColorTree "x14:negativeFillColor".toList b.negFill] else []) ++
    (if !b.borderOff && decide (b.fill ≠ b.negBorder) then [condColorTree "x14:negativeBorderColor".toList b.negBorder]
     else []) ++
    (if b.axisPosition ≠ some false then [condColorTree "x14:axisColor".toList b.axis] else [])

/-- `write_x14_type` of the icon sets, /repo/src/conditional_format.rs:6234-6267. -/
def x14IconPointTree (i : CondIcon) : List Tree :=
  match i.point.type with
  | .number => [.node "x14:cfvo".toList [("type".toList, "num".toList)] [.data "xm:f".toList i.point.value []]]
  | .percent => [.node "x14:cfvo".toList [("type".toList, "percent".toList)] [.data "xm:f".toList i.point.value []]]
  | .formula => [.node "x14:cfvo".toList [("type".toList, "formula".toList)] [.data "xm:f".toList i.point.value []]]
  | .percentile => [.node "x14:cfvo".toList [("type".toList, "percentile".toList)] [.data "xm:f".toList i.point.value []]]
  | _ => []

/-- The `x14:cfIcon` elements, /repo/src/conditional_format.rs:6178-6195. -/
def x14CustomIcons (type : CondIcons) : Nat → List CondIcon → List Tree
  | _, [] => []
  | n, i :: is =>
    .empty "x14:cfIcon".toList
      (if i.noIcon then [("iconSet".toList, "NoIcons".toList), ("iconId".toList, "0".toList)]
       else match i.icon with
        | some (t, k) => [("iconSet".toList, t.name), ("iconId".toList, showNat k)]
        | none => [("iconSet".toList, type.name), ("iconId".toList, showNat n)]) ::
      x14CustomIcons type (n + 1) is

/-- `x14_rule`, /repo/src/conditional_format.rs:5390-5431, 6150-6201; the other types write nothing. -/
def CondKind.x14Rule (k : CondKind) (priority : Nat) (guid : Str) : List Tree :=
  match k with
  | .bar b => [.node "x14:cfRule".toList [("type".toList, "dataBar".toList), ("id".toList, guid)]
      [.node "x14:dataBar".toList (x14BarAttrs b) (x14BarChildren b)]]
  | .icons s => [.node "x14:cfRule".toList
      [("type".toList, "iconSet".toList), ("priority".toList, showNat priority), ("id".toList, guid)]
      [.node "x14:iconSet".toList
        ((if s.type = .threeTrafficLights then [] else [("iconSet".toList, s.type.name)]) ++
          (if s.custom then [("custom".toList, "1".toList)] else []))
        (s.icons.flatMap x14IconPointTree ++ if s.custom then x14CustomIcons s.type 0 s.icons else [])]]
  | _ => []

/-! ### The worksheet -/

/-- A stored conditional format: the one given, and `dxf_index` of its format. -/
structure CondStored where
  cond : CondFmt
  dxf : Option Nat

/-- The fields of a worksheet, /repo/src/worksheet.rs:1611-1616: `formats` is the `BTreeMap`, its keys in increasing
order. -/
structure CondSheet where
  formats : List (Str × List CondStored) := []
  order : List Str := []
  dxf : DxfTable := {}
  hasClassic : Bool := false
  hasX14 : Bool := false

/-- The match on the entry of the `BTreeMap`, /repo/src/worksheet.rs:9059-9074. -/
def condInsert (k : Str) (v : CondStored) : List (Str × List CondStored) → List (Str × List CondStored)
  | [] => [(k, [v])]
  | (k', vs) :: t =>
    if k = k' then (k', vs ++ [v]) :: t
    else if strLe k k' then (k, [v]) :: (k', vs) :: t
    else (k', vs) :: condInsert k v t

/-- The range of a conditional format, /repo/src/worksheet.rs:9034-9038. -/
def CondFmt.range (c : CondFmt) (d : Dims) : Str :=
  if c.multi.isEmpty then cellRange d.firstRow d.firstCol d.lastRow d.lastCol else c.multi

/-- Storing a format, /repo/src/worksheet.rs:9043-9074. -/
def CondSheet.store (s : CondSheet) (d : Dims) (c : CondFmt) : CondSheet :=
  let dxf : Option Nat × DxfTable := match c.format with
    | some f => (some (s.dxf.formatDxfIndex f).1, (s.dxf.formatDxfIndex f).2)
    | none => (none, s.dxf)
  { formats := condInsert (c.range d) ⟨c, dxf.1⟩ s.formats
    order := if (s.formats.lookup (c.range d)).isSome then s.order else s.order ++ [c.range d]
    dxf := dxf.2
    hasClassic := s.hasClassic || !c.kind.onlyX14
    hasX14 := s.hasX14 || c.kind.hasX14 }

/-- `add_conditional_format`, /repo/src/worksheet.rs:9008-9077: whether it is accepted, and the worksheet. -/
def CondSheet.add (s : CondSheet) (d : Dims) (c : CondFmt) : Bool × CondSheet :=
  if d.firstRow ≥ ROW_MAX || d.firstCol ≥ COL_MAX || d.lastRow ≥ ROW_MAX || d.lastCol ≥ COL_MAX then (false, s)
  else if d.firstRow > d.lastRow || d.firstCol > d.lastCol then (false, s)
  else if !c.kind.valid then (false, s)
  else (true, s.store d c)

/-- The calls that change these fields: `add_conditional_format`, and an accepted `add_table` with a format, which
gets a number from the same table (/repo/src/worksheet.rs:8834-8837). -/
inductive RuleOp where
  | cond (d : Dims) (c : CondFmt)
  | tableFormat (f : Format)

/-- One of these calls. -/
def CondSheet.step (s : CondSheet) : RuleOp → CondSheet
  | .cond d c => (s.add d c).2
  | .tableFormat f => { s with dxf := (s.dxf.formatDxfIndex f).2 }

/-- A sequence of calls on a new worksheet. -/
def condRun (ops : List RuleOp) : CondSheet := ops.foldl CondSheet.step {}

/-- `{:X}`: the digits to the base of 16. -/
def hexUpper (n : Nat) : Str :=
  if n < 16 then [hexDigitUpper n] else hexUpper (n / 16) ++ [hexDigitUpper (n % 16)]

/-- `{:012X}` and `{:04X}`: with zeros in front, up to a width. -/
def hexPad (width n : Nat) : Str :=
  List.replicate (width - (hexUpper n).length) '0' ++ hexUpper n

/-- The GUID, /repo/src/worksheet.rs:17938-17942. -/
def condGuid (sheetIndex n : Nat) : Str :=
  "{DA7ABA51-AAAA-BBBB-".toList ++ hexPad 4 (sheetIndex + 1) ++ "-".toList ++ hexPad 12 n ++ "}".toList

/-- The rules of a range, /repo/src/worksheet.rs:17934-17958, with the GUID and priority counters. `global` is
`global_dxf_indices`. -/
def condRules (global : List Nat) (sheetIndex : Nat) (range : Str) :
    Nat × Nat → List CondStored → List Tree × (Nat × Nat)
  | st, [] => ([], st)
  | (g, p), c :: cs =>
    let guid := if c.cond.kind.hasX14 then condGuid sheetIndex g else []
    let t := if c.cond.kind.onlyX14 then []
      else (c.cond.kind.rule (c.dxf.bind fun i => global[i]?) p c.cond.stop range guid).toList
    let r := condRules global sheetIndex range (if c.cond.kind.hasX14 then g + 1 else g, p + 1) cs
    (t ++ r.1, r.2)

/-- `write_conditional_formats`, /repo/src/worksheet.rs:17917-17964. -/
def condLoop (s : CondSheet) (global : List Nat) (sheetIndex : Nat) : Nat × Nat → List Str → List Tree
  | _, [] => []
  | st, k :: ks =>
    let rules := (s.formats.lookup k).getD []
    let r := condRules global sheetIndex k st rules
    (if rules.all (·.cond.kind.onlyX14) then []
      else [.node "conditionalFormatting".toList [("sqref".toList, k)] r.1]) ++ condLoop s global sheetIndex r.2 ks

/-- The elements for the conditional formats, /repo/src/worksheet.rs:17403-17405. -/
def condTrees (s : CondSheet) (global : List Nat) (sheetIndex : Nat) : List Tree :=
  if s.hasClassic then condLoop s global sheetIndex (1, 1) s.order else []

/-- The extended rules of a range, /repo/src/worksheet.rs:17990-18004. -/
def x14Rules (sheetIndex : Nat) : Nat × Nat → List CondStored → List Tree × (Nat × Nat)
  | st, [] => ([], st)
  | (g, p), c :: cs =>
    let t := if c.cond.kind.hasX14 then c.cond.kind.x14Rule p (condGuid sheetIndex g) else []
    let r := x14Rules sheetIndex (if c.cond.kind.hasX14 then g + 1 else g, p + 1) cs
    (t ++ r.1, r.2)

/-- `write_conditional_formattings`, /repo/src/worksheet.rs:17974-18008. -/
def x14Loop (sheetIndex : Nat) : Nat × Nat → List (Str × List CondStored) → List Tree
  | _, [] => []
  | st, (k, cs) :: rest =>
    if cs.any (·.cond.kind.hasX14) then
      let r := x14Rules sheetIndex st cs
      .node "x14:conditionalFormatting".toList
        [("xmlns:xm".toList, "http://schemas.microsoft.com/office/excel/2006/main".toList)]
        (r.1 ++ [.data "xm:sqref".toList k []]) :: x14Loop sheetIndex r.2 rest
    else x14Loop sheetIndex st rest

/-- `write_conditional_formattings`, /repo/src/worksheet.rs:17968-18011. -/
def x14CondTree (s : CondSheet) (sheetIndex : Nat) : Tree :=
  .node "x14:conditionalFormattings".toList [] (x14Loop sheetIndex (1, 1) s.formats)

end Verif
