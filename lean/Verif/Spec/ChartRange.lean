import Verif.Spec.Names
import Verif.Spec.Chart
import Verif.Model.ChartRange
/-!
Specification of ranges given as text, such as `Sheet1!$A$1:$A$5` or `='Sales data'!B2`, and of the ranges and
charts Excel accepts.
-/
namespace Verif.Spec

/-- Leave out an anchor. -/
def dropAnchor : List Char → List Char
  | '$' :: s => s
  | s => s

/-- Read a cell with or without anchors: `A1`, `$A1`, `A$1` or `$A$1`. -/
def readCell (s : List Char) : Option (Nat × Nat) :=
  match readCol ((dropAnchor s).takeWhile isLetter), readRow (dropAnchor ((dropAnchor s).dropWhile isLetter)) with
  | some c, some r => some (r, c)
  | _, _ => none

/-- Leave out the equals sign of a formula. -/
def dropEquals : List Char → List Char
  | '=' :: s => s
  | s => s

/-- Read a range with its worksheet: the name, the first cell and the last cell. -/
def readRangeRef (s : List Char) : Option (List Char × ((Nat × Nat) × (Nat × Nat))) :=
  match readSheetRef (dropEquals s) with
  | some (n, rest) => (readRangeWith readCell rest).map fun p => (n, p)
  | none => none

/-- A range that Excel accepts: a legal worksheet name, the corners in order and in the grid. -/
structure RangeLegal (sheet : List Char) (first last : Nat × Nat) : Prop where
  name : LegalName sheet
  rows : first.1 ≤ last.1
  cols : first.2 ≤ last.2
  lastRow : last.1 < 1048576
  lastCol : last.2 < 16384

/-- A trend line that Excel accepts: a polynomial of order 2 to 6, a moving average over 2 to 4 periods. -/
def TrendLegal : Trend → Prop
  | .polynomial n => 2 ≤ n ∧ n ≤ 6
  | .movingAverage n => 2 ≤ n ∧ n ≤ 4
  | .other => True

/-- A chart that is accepted: it has a series, every series has a legal range of values and, if it has categories, a
legal range of categories; scatter charts need categories; trend lines are legal. -/
def ChartLegal (g : ChartGroup) (series : List (ChartSeries × Trend)) : Prop :=
  series ≠ [] ∧ ∀ s ∈ series,
    RangeLegal s.1.values.range.sheet (s.1.values.range.d.firstRow, s.1.values.range.d.firstCol)
      (s.1.values.range.d.lastRow, s.1.values.range.d.lastCol) ∧
    (s.1.cats.range.sheet = [] → g ≠ .scatter) ∧
    (s.1.cats.range.sheet ≠ [] →
      RangeLegal s.1.cats.range.sheet (s.1.cats.range.d.firstRow, s.1.cats.range.d.firstCol)
        (s.1.cats.range.d.lastRow, s.1.cats.range.d.lastCol)) ∧
    TrendLegal s.2

end Verif.Spec
