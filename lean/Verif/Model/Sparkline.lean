import Verif.Model.ChartRange
/-!
Sparklines: `add_sparkline` and `add_sparkline_group` (/repo/src/worksheet.rs:9283-9479), the cells and ranges of a
sparkline (/repo/src/sparkline.rs:1384-1418, /repo/src/chart.rs:8487-8566) and the extension list of the worksheet part
(/repo/src/worksheet.rs:19671-19851). The formatting attributes and the colours of a sparkline are parameters.
-/
namespace Verif

/-- The fields of `Sparkline` that say where it is and what it shows, /repo/src/sparkline.rs:509-536; `attrs` are the
formatting attributes and `colors` the eight colour elements (/repo/src/worksheet.rs:19725-19821), `ranges` the cells
with their formulas. -/
structure Sparkline where
  data : ChartRange := {}
  date : ChartRange := {}
  rowOrder : Bool := true
  ranges : List (Str × Str) := []
  attrs : Attrs := []
  colors : List Tree := []

/-- `chart_range`, /repo/src/utility.rs:524-540. A panic of `quote_sheet_name` is the empty text here; the ranges that
come here were validated before, which panics first. -/
def chartRangeRel (U : Unicode) (r : ChartRange) : Str :=
  match quoteSheetName U r.sheet with
  | none => []
  | some q => q ++ '!' :: cellRange r.d.firstRow r.d.firstCol r.d.lastRow r.d.lastCol

/-- `add_cell_range`, /repo/src/sparkline.rs:1385-1390. -/
def Sparkline.addCellRange (U : Unicode) (s : Sparkline) (row col : Nat) : Sparkline :=
  { s with ranges := s.ranges ++ [(rowColToCell row col, chartRangeRel U s.data)] }

/-- `set_baseline`, /repo/src/chart.rs:8505-8511. -/
def ChartRange.baseline (r : ChartRange) (rowOrder : Bool) : ChartRange :=
  if rowOrder then { r with d := { r.d with lastRow := r.d.firstRow } }
  else { r with d := { r.d with lastCol := r.d.firstCol } }

/-- `increment`, /repo/src/chart.rs:8515-8523. -/
def ChartRange.increment (r : ChartRange) (rowOrder : Bool) : ChartRange :=
  if rowOrder then { r with d := { r.d with firstRow := r.d.firstRow + 1, lastRow := r.d.firstRow + 1 } }
  else { r with d := { r.d with firstCol := r.d.firstCol + 1, lastCol := r.d.firstCol + 1 } }

/-- The body of the loops of `add_group_range`, /repo/src/sparkline.rs:1404-1416. -/
def Sparkline.addGroupCells (U : Unicode) : Sparkline → List (Nat × Nat) → Sparkline
  | s, [] => s
  | s, (row, col) :: cells =>
    let s := s.addCellRange U row col
    Sparkline.addGroupCells U { s with data := s.data.increment s.rowOrder } cells

/-- `add_group_range`, /repo/src/sparkline.rs:1393-1418. -/
def Sparkline.addGroupRange (U : Unicode) (s : Sparkline) (d : Dims) : Sparkline :=
  let s := { s with data := s.data.baseline s.rowOrder }
  if d.lastCol - d.firstCol = 0 then
    s.addGroupCells U ((List.range' d.firstRow (d.lastRow + 1 - d.firstRow)).map fun r => (r, d.firstCol))
  else
    s.addGroupCells U ((List.range' d.firstCol (d.lastCol + 1 - d.firstCol)).map fun c => (d.firstRow, c))

/-- `is_1d`, /repo/src/chart.rs:8564-8566 (after `validate`, so that the subtractions do not overflow). -/
def ChartRange.is1d (r : ChartRange) : Bool :=
  r.d.lastRow - r.d.firstRow = 0 || r.d.lastCol - r.d.firstCol = 0

/-- The sparklines of a worksheet after a call, with the outcome. -/
abbrev SparkRes := Checked × List Sparkline

/-- `add_sparkline`, /repo/src/worksheet.rs:9283-9324. -/
def addSparkline (U : Unicode) (st : List Sparkline) (row col : Nat) (s : Sparkline) : SparkRes :=
  if row ≥ ROW_MAX || col ≥ COL_MAX then (.refused, st)
  else if !s.data.hasData then (.refused, st)
  else match s.data.validate U with
    | .panic => (.panic, st)
    | .refused => (.refused, st)
    | .ok => if !s.data.is1d then (.refused, st) else (.ok, st ++ [s.addCellRange U row col])

/-- `add_sparkline_group`, /repo/src/worksheet.rs:9415-9479. -/
def addSparklineGroup (U : Unicode) (st : List Sparkline) (d : Dims) (s : Sparkline) : SparkRes :=
  if d.firstRow ≥ ROW_MAX || d.firstCol ≥ COL_MAX || d.lastRow ≥ ROW_MAX || d.lastCol ≥ COL_MAX then (.refused, st)
  else if d.firstRow > d.lastRow || d.firstCol > d.lastCol then (.refused, st)
  else if !s.data.hasData then (.refused, st)
  else match s.data.validate U with
    | .panic => (.panic, st)
    | .refused => (.refused, st)
    | .ok =>
      if s.data.is1d then (.refused, st)
      else
        let cells := max (d.lastRow - d.firstRow + 1) (d.lastCol - d.firstCol + 1)
        if cells ≠ s.data.d.lastRow - s.data.d.firstRow + 1 && cells ≠ s.data.d.lastCol - s.data.d.firstCol + 1 then
          (.refused, st)
        else (.ok, st ++ [s.addGroupRange U d])

/-- The calls. -/
inductive SparkOp where
  | one (row col : Nat) (s : Sparkline)
  | group (d : Dims) (s : Sparkline)

/-- One call. -/
def sparkExec (U : Unicode) (st : List Sparkline) : SparkOp → SparkRes
  | .one row col s => addSparkline U st row col s
  | .group d s => addSparklineGroup U st d s

/-- A sequence of calls on a new worksheet: the sparklines. -/
def sparkRun (U : Unicode) (ops : List SparkOp) : List Sparkline := ops.foldl (fun st op => (sparkExec U st op).2) []

/-! ### Writing -/

/-- `write_sparklines`, /repo/src/worksheet.rs:19839-19851. -/
def sparklinesTree (s : Sparkline) : Tree :=
  .node "x14:sparklines".toList [] (s.ranges.map fun r =>
    .node "x14:sparkline".toList [] [.data "xm:f".toList r.2 [], .data "xm:sqref".toList r.1 []])

/-- `write_sparkline_group`, /repo/src/worksheet.rs:19724-19831. (The position of `dateAxis` among the attributes is
not modelled.) -/
def sparklineGroupTree (U : Unicode) (s : Sparkline) : Tree :=
  .node "x14:sparklineGroup".toList
    ((if s.date.hasData then [("dateAxis".toList, "1".toList)] else []) ++ s.attrs)
    (s.colors ++ (if s.date.hasData then [.data "xm:f".toList (chartRangeRel U s.date) []] else []) ++ [sparklinesTree s])

/-- `write_sparkline_groups`, /repo/src/worksheet.rs:19706-19721. -/
def sparklineGroupsTree (U : Unicode) (st : List Sparkline) : Tree :=
  .node "x14:sparklineGroups".toList [("xmlns:xm".toList, "http://schemas.microsoft.com/office/excel/2006/main".toList)]
    (st.reverse.map (sparklineGroupTree U))

/-- The attributes of the `ext` elements, /repo/src/worksheet.rs:19676-19682 and 19689-19695. -/
def extAttrs (uri : Str) : Attrs :=
  [("xmlns:x14".toList, "http://schemas.microsoft.com/office/spreadsheetml/2009/9/main".toList), ("uri".toList, uri)]

/-- `write_extensions`, /repo/src/worksheet.rs:19671-19703, as calls of the XML writer; `cf` is the element of the
conditional formats, if there are some. -/
def extensionCalls (U : Unicode) (cf : Option Tree) (st : List Sparkline) : List Call :=
  [.start "extLst".toList []] ++
    (match cf with
      | some t => .start "ext".toList (extAttrs "{78C0D931-6437-407d-A8EE-F0AAD7539E65}".toList) :: t.calls
      | none => []) ++
    (if st.isEmpty then []
     else .start "ext".toList (extAttrs "{05C60535-1F16-4fd2-B633-F4F36F0B64E0}".toList) ::
       (sparklineGroupsTree U st).calls) ++
    [.close "ext".toList, .close "extLst".toList]

end Verif
