import Verif.Spec.Style
import Verif.Spec.Ref
import Verif.Spec.Notes
import Verif.Model.Table
/-!
How a reader sees a table part (ECMA-376 part 1, 18.5). The last
section says what a `Table` means, in terms of its public properties.
-/
namespace Verif.Spec

/-- A range of cells: first row, first column, last row, last column. -/
abbrev RangeSeen := (Nat × Nat) × (Nat × Nat)

/-- A column of a table, 18.5.1.3. -/
structure TableColSeen where
  id : Nat
  name : Text
  totalLabel : Option Text
  totalFunction : Option Text
  dxf : Option Nat
  formula : Option Text
  totalFormula : Option Text
deriving DecidableEq, Repr

/-- A table, 18.5.1.2, with its style information, 18.5.1.5. -/
structure TableSeen where
  id : Nat
  name : Text
  displayName : Text
  range : RangeSeen
  headerRow : Bool
  totalRow : Bool
  filter : Option RangeSeen
  columns : List TableColSeen
  style : Option Text
  firstColumn : Bool
  lastColumn : Bool
  rowStripes : Bool
  columnStripes : Bool
deriving DecidableEq, Repr

/-- A formula child of a column; the outer `Option` is `none` if it cannot be read. -/
def readFormulaChild (t : Text) (ks : List Node) : Option (Option Text) :=
  match child t ks with
  | none => some none
  | some c => (textOnly c.2).map fun s => some (unescapeX s)

/-- A `tableColumn` element. -/
def readTableCol (e : NodeAttrs × List Node) : Option TableColSeen :=
  match attrNat "id".toList e.1, e.1.lookup "name".toList,
    readFormulaChild "calculatedColumnFormula".toList e.2,
    readFormulaChild "totalsRowFormula".toList e.2 with
  | some id, some name, some f, some tf =>
    some { id := id, name := name, totalLabel := e.1.lookup "totalsRowLabel".toList
           totalFunction := e.1.lookup "totalsRowFunction".toList
           dxf := attrNat "dataDxfId".toList e.1, formula := f, totalFormula := tf }
  | _, _, _, _ => none

/-- The autofilter of a table; the outer `Option` is `none` if it cannot be read. -/
def readTableFilter (ks : List Node) : Option (Option RangeSeen) :=
  match child "autoFilter".toList ks with
  | none => some none
  | some c => ((c.1.lookup "ref".toList).bind readRange).map some

/-- Whether a number-of-rows attribute is 1; `dflt` if it is not there. -/
def oneRow (n : Text) (dflt : Bool) (as : NodeAttrs) : Bool :=
  match as.lookup n with
  | some s => s = "1".toList
  | none => dflt

/-- A `table` part. -/
def readTable : Node → Option TableSeen
  | .text _ => none
  | .elem root as ks =>
    if root ≠ "table".toList then none
    else
      match attrNat "id".toList as, as.lookup "name".toList, as.lookup "displayName".toList,
        (as.lookup "ref".toList).bind readRange, readTableFilter ks,
        (readItems "tableColumns".toList "tableColumn".toList ks).bind fun l => l.mapM readTableCol,
        child "tableStyleInfo".toList ks with
      | some id, some name, some shown, some range, some filter, some cols, some style =>
        some
          { id := id, name := name, displayName := shown, range := range
            headerRow := oneRow "headerRowCount".toList true as
            totalRow := oneRow "totalsRowCount".toList false as
            filter := filter, columns := cols
            style := style.1.lookup "name".toList
            firstColumn := oneRow "showFirstColumn".toList false style.1
            lastColumn := oneRow "showLastColumn".toList false style.1
            rowStripes := oneRow "showRowStripes".toList false style.1
            columnStripes := oneRow "showColumnStripes".toList false style.1 }
      | _, _, _, _, _, _, _ => none

/-! ### What the user meant -/

variable {Fmt : Type}

/-- The name of a totals function, 18.18.89. -/
def totalFunctionName : TotalFn → Option Text
  | .none => none
  | .average => some "average".toList
  | .count => some "count".toList
  | .countNumbers => some "countNums".toList
  | .max => some "max".toList
  | .min => some "min".toList
  | .sum => some "sum".toList
  | .stdDev => some "stdDev".toList
  | .var => some "var".toList
  | .custom _ => some "custom".toList

/-- The name of a table style; no style has no name. -/
def styleName : TableStyle → Option Text
  | .none => none
  | .light n => some ("TableStyleLight".toList ++ showNat n)
  | .medium n => some ("TableStyleMedium".toList ++ showNat n)
  | .dark n => some ("TableStyleDark".toList ++ showNat n)

/-- The column number `i` (from 0) of a table; a label replaces a function. `dxf` is the number of the
differential format in the styles part. -/
def colMeant (i : Nat) (c : TableCol Fmt) (dxf : Nat) : TableColSeen :=
  { id := i + 1
    name := c.name
    totalLabel := if c.totalLabel = [] then none else some c.totalLabel
    totalFunction := if c.totalLabel = [] then totalFunctionName c.totalFunction else none
    dxf := if c.format.isSome then some dxf else none
    formula := c.formula.map (·.text)
    totalFormula := match c.totalFunction with | .custom f => some f.text | _ => none }

/-- The table number `id` of a workbook: without a name of its own it is called `Table` and its number. -/
def tableMeant (id : Nat) (t : Table Fmt) (d : Dims) (dxf : Nat → Nat) : TableSeen :=
  { id := id
    name := if t.name = [] then "Table".toList ++ showNat id else t.name
    displayName := if t.name = [] then "Table".toList ++ showNat id else t.name
    range := ((d.firstRow, d.firstCol), (d.lastRow, d.lastCol))
    headerRow := t.showHeaderRow
    totalRow := t.showTotalRow
    filter := if t.showAutofilter = true ∧ t.showHeaderRow = true then
        some ((d.firstRow, d.firstCol), (if t.showTotalRow then d.lastRow - 1 else d.lastRow, d.lastCol))
      else none
    columns := (List.range t.columns.length).zipWith (fun i c => colMeant i c (dxf i)) t.columns
    style := styleName t.style
    firstColumn := t.showFirstColumn
    lastColumn := t.showLastColumn
    rowStripes := t.showBandedRows
    columnStripes := t.showBandedColumns }

/-- All text of a column can be carried by XML. -/
def colSafe (c : TableCol Fmt) : Bool :=
  attrSafe c.name && attrSafe c.totalLabel && c.formula.all (fun f => plain f.text) &&
  (match c.totalFunction with | .custom f => plain f.text | _ => true)

/-- All text of a table can be carried by XML. -/
def tableSafe (t : Table Fmt) : Bool := attrSafe t.name && t.columns.all colSafe

end Verif.Spec
