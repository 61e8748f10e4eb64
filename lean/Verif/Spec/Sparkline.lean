import Verif.Model.Sparkline
import Verif.Spec.ChartRange
/-!
How a reader sees the sparklines of a worksheet ([MS-XLSX] 2.6.50-2.6.53): groups of cells with the ranges they show;
and what the calls mean.
-/
namespace Verif.Spec

/-- A sparkline: its cell, and the range of values with its worksheet. -/
structure SparkSeen where
  cell : Nat × Nat
  sheet : Text
  range : (Nat × Nat) × (Nat × Nat)
deriving DecidableEq, Repr

/-- A group: the range of dates, if there is one, and the sparklines. -/
structure SparkGroupSeen where
  dates : Option (Text × ((Nat × Nat) × (Nat × Nat)))
  sparks : List SparkSeen
deriving DecidableEq, Repr

/-- A formula that is a range of a worksheet. -/
def readFormula (ks : List Node) : Option (Text × ((Nat × Nat) × (Nat × Nat))) :=
  match ((child "xm:f".toList ks).bind fun c => textOnly c.2).bind readSheetRef with
  | some (n, rest) => (readRange rest).map fun r => (n, r)
  | none => none

/-- An `x14:sparkline` element. -/
def readSpark (e : NodeAttrs × List Node) : Option SparkSeen :=
  match readFormula e.2, ((child "xm:sqref".toList e.2).bind fun c => textOnly c.2).bind readA1 with
  | some (n, r), some c => some ⟨c, n, r⟩
  | _, _ => none

/-- The dates of a group: the formula, if the attribute `dateAxis` is there. -/
def readDates (e : NodeAttrs × List Node) : Option (Option (Text × ((Nat × Nat) × (Nat × Nat)))) :=
  match e.1.lookup "dateAxis".toList with
  | some _ => (readFormula e.2).map some
  | none => some none

/-- An `x14:sparklineGroup` element. -/
def readSparkGroup (e : NodeAttrs × List Node) : Option SparkGroupSeen :=
  match readDates e, child "x14:sparklines".toList e.2 with
  | some ds, some c => ((elems "x14:sparkline".toList c.2).mapM readSpark).map fun s => ⟨ds, s⟩
  | _, _ => none

/-- The `x14:sparklineGroups` element. -/
def readGroups : Node → Option (List SparkGroupSeen)
  | .elem t _ ks =>
    if t = "x14:sparklineGroups".toList then (elems "x14:sparklineGroup".toList ks).mapM readSparkGroup else none
  | .text _ => none

/-- The sparkline groups in an `extLst` element: the child of the `ext` element for sparklines. -/
def readExtGroups : Node → Option (List SparkGroupSeen)
  | .elem _ _ ks =>
    match (elems "ext".toList ks).find? fun e =>
        e.1.lookup "uri".toList == some "{05C60535-1F16-4fd2-B633-F4F36F0B64E0}".toList with
    | some (_, [n]) => readGroups n
    | _ => none
  | .text _ => none

/-! ### What the calls mean -/

/-- The range of a `ChartRange` as corners. -/
def corners (r : ChartRange) : (Nat × Nat) × (Nat × Nat) := ((r.d.firstRow, r.d.firstCol), (r.d.lastRow, r.d.lastCol))

/-- The rows of a range, or its columns. -/
def slices (byRow : Bool) (d : Dims) : List ((Nat × Nat) × (Nat × Nat)) :=
  if byRow then (List.range' d.firstRow (d.lastRow + 1 - d.firstRow)).map fun r => ((r, d.firstCol), (r, d.lastCol))
  else (List.range' d.firstCol (d.lastCol + 1 - d.firstCol)).map fun c => ((d.firstRow, c), (d.lastRow, c))

/-- The range has one row or one column. -/
def OneDim (d : Dims) : Prop := d.firstRow = d.lastRow ∨ d.firstCol = d.lastCol

/-- The dates of a sparkline. -/
def datesMeant (s : Sparkline) : Option (Text × ((Nat × Nat) × (Nat × Nat))) :=
  if s.date.sheet = [] then none else some (s.date.sheet, corners s.date)

/-- What a call means: one sparkline in a cell; or for every cell of a range a sparkline with one row (or column) of
the data, in order. -/
def sparkMeant : SparkOp → SparkGroupSeen
  | .one row col s => ⟨datesMeant s, [⟨(row, col), s.data.sheet, corners s.data⟩]⟩
  | .group d s => ⟨datesMeant s, ((rangeCells d).zip (slices s.rowOrder s.data.d)).map fun p => ⟨p.1, s.data.sheet, p.2⟩⟩

/-- The data range of a call is legal. -/
def DataLegal (r : ChartRange) : Prop := RangeLegal r.sheet (r.d.firstRow, r.d.firstCol) (r.d.lastRow, r.d.lastCol)

/-- A call that should be accepted: the cells are in the grid, the data range is legal and, for one cell, has one row
or column; for a group, the cells are one row or one column, the data range has several rows and columns, and there
are as many cells as rows (or columns) of the data. -/
def SparkLegal : SparkOp → Prop
  | .one row col s => row < 1048576 ∧ col < 16384 ∧ DataLegal s.data ∧ OneDim s.data.d
  | .group d s =>
    (d.firstRow ≤ d.lastRow ∧ d.firstCol ≤ d.lastCol ∧ d.lastRow < 1048576 ∧ d.lastCol < 16384) ∧
    DataLegal s.data ∧ ¬ OneDim s.data.d ∧ OneDim d ∧
    (rangeCells d).length = (slices s.rowOrder s.data.d).length

end Verif.Spec
