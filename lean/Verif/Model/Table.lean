import Verif.Model.MergeRange
import Verif.Model.Formula
/-!
Worksheet tables: /repo/src/table.rs, `add_table` (/repo/src/worksheet.rs:8752-8900), `autofilter`
(8414-8469) and `default_table_headers` (16952-16980).

`lower` stands for `str::to_lowercase`; no property of it is assumed.
Not modelled: the differential format of a column (`format_dxf_index`, 8836); its number is a parameter
of the written part.
-/
namespace Verif

/-- `TableFunction`, /repo/src/table.rs:1981-2012. -/
inductive TotalFn where
  | none | average | count | countNumbers | max | min | sum | stdDev | var
  | custom (f : FormulaArg)
deriving DecidableEq, Repr

/-- `TableColumn`, /repo/src/table.rs:1416-1437. -/
structure TableCol (Fmt : Type) where
  name : Str := []
  totalFunction : TotalFn := .none
  totalLabel : Str := []
  formula : Option FormulaArg := none
  format : Option Fmt := none
  headerFormat : Option Fmt := none
deriving DecidableEq

/-- `TableStyle`, /repo/src/table.rs:2091-2275: a family and a number (from 1). -/
inductive TableStyle where
  | none
  | light (n : Nat)
  | medium (n : Nat)
  | dark (n : Nat)
deriving DecidableEq, Repr

/-- `Table`, /repo/src/table.rs:110-216 (`cell_range` is kept beside it). -/
structure Table (Fmt : Type) where
  columns : List (TableCol Fmt) := []
  index : Nat := 0
  name : Str := []
  style : TableStyle := .medium 9
  showFirstColumn : Bool := false
  showLastColumn : Bool := false
  showBandedRows : Bool := true
  showBandedColumns : Bool := false
  showAutofilter : Bool := true
  showHeaderRow : Bool := true
  showTotalRow : Bool := false
  isSerde : Bool := false
deriving DecidableEq

section
variable {Fmt : Type} [DecidableEq Fmt]

/-- The header texts in place of missing names: "ColumnN", or the text already in the header cell,
`default_table_headers`, /repo/src/worksheet.rs:16952-16980. -/
def Sheet.defaultTableHeaders (s : Sheet Fmt) (d : Dims) (showHeader : Bool) : List Str :=
  (List.range' d.firstCol (d.lastCol + 1 - d.firstCol)).map fun c =>
    let dflt := "Column".toList ++ showNat (c - d.firstCol + 1)
    if !showHeader then dflt
    else match (s.table.get d.firstRow).bind fun cols => cols.get c with
      | some (.string t _ _) => t
      | some (.inlineString t _) => t
      | _ => dflt

/-- `Vec::resize_with` with default columns, /repo/src/table.rs:1143-1146. -/
def resizeColumns (n : Nat) (cs : List (TableCol Fmt)) : List (TableCol Fmt) :=
  cs.take n ++ List.replicate (n - cs.length) { name := [] }

/-- The loop of `initialize_columns`, /repo/src/table.rs:1149-1163; `none` is the error for a name that is
already there. -/
def nameColumns (lower : Str → Str) : List (TableCol Fmt) → List Str → List Str → Option (List (TableCol Fmt))
  | [], _, _ => some []
  | c :: cs, hs, seen =>
    let name := if c.name = [] then hs.headD [] else c.name
    if seen.contains (lower name) then none
    else (nameColumns lower cs hs.tail (lower name :: seen)).map ({ c with name := name } :: ·)

/-- `initialize_columns`, /repo/src/table.rs:1138-1166. -/
def Table.initializeColumns (lower : Str → Str) (t : Table Fmt) (d : Dims) (headers : List Str) :
    Option (Table Fmt) :=
  (nameColumns lower (resizeColumns (d.lastCol - d.firstCol + 1) t.columns) headers []).map
    fun cs => { t with columns := cs }

/-- `first_data_row`, /repo/src/table.rs:1169-1175. -/
def Table.firstDataRow (t : Table Fmt) (d : Dims) : Nat := if t.showHeaderRow then d.firstRow + 1 else d.firstRow

/-- `last_data_row`, /repo/src/table.rs:1178-1184; `none` is the underflow of an unsigned subtraction. -/
def Table.lastDataRow (t : Table Fmt) (d : Dims) : Option Nat :=
  if t.showTotalRow then (if d.lastRow = 0 then none else some (d.lastRow - 1)) else some d.lastRow

/-- `str::replace` of one character. -/
def replaceChar (c : Char) (r : Str) (s : Str) : Str := s.flatMap fun x => if x = c then r else [x]

/-- The escaped column name, /repo/src/table.rs:1886-1891. -/
def escapeColumnName (s : Str) : Str :=
  replaceChar '[' "'[".toList (replaceChar ']' "']".toList (replaceChar '#' "'#".toList
    (replaceChar '\'' "''".toList s)))

/-- The number of the `SUBTOTAL` function, /repo/src/table.rs:1893-1904. -/
def TotalFn.subtotal : TotalFn → Nat
  | .max => 104
  | .min => 105
  | .sum => 109
  | .var => 110
  | .count => 103
  | .stdDev => 107
  | .average => 101
  | .countNumbers => 102
  | .none => 0
  | .custom _ => 0

/-- `total_function`, /repo/src/table.rs:1885-1905. -/
def TableCol.totalFormula (c : TableCol Fmt) : FormulaArg :=
  match c.totalFunction with
  | .none => { text := (formulaNew []).1, dynamic := (formulaNew []).2 }
  | .custom f => f
  | fn =>
    let r := formulaNew ("SUBTOTAL(".toList ++ showNat fn.subtotal ++ ",[".toList ++ escapeColumnName c.name ++ "])".toList)
    { text := r.1, dynamic := r.2 }

/-- `update_cell_format`, /repo/src/worksheet.rs:15611-15634. -/
def Sheet.updateCellFormat (s : Sheet Fmt) (row col xf : Nat) : Sheet Fmt :=
  match s.table.get row with
  | none => s
  | some columns =>
    match columns.get col with
    | none => s
    | some cell => { s with table := s.table.insert row (columns.insert col (cell.setXf xf)) }

/-- The header of a table column, /repo/src/worksheet.rs:8793-8803. -/
def Sheet.writeTableHeader (s : Sheet Fmt) (t : Table Fmt) (d : Dims) (col : Nat) (c : TableCol Fmt) : Res Fmt :=
  if t.showHeaderRow && !t.isSerde then s.storeString d.firstRow col c.name c.headerFormat else (none, s)

/-- The total row of a table column, /repo/src/worksheet.rs:8817-8825. -/
def Sheet.writeTableTotal (s : Sheet Fmt) (t : Table Fmt) (dflt : Fmt) (d : Dims) (col : Nat) (c : TableCol Fmt) : Res Fmt :=
  if t.showTotalRow then
    if c.totalLabel ≠ [] then s.storeString d.lastRow col c.totalLabel (some (c.format.getD dflt))
    else if c.totalFunction ≠ .none then s.storeFormula d.lastRow col c.totalFormula (some (c.format.getD dflt))
    else (none, s)
  else (none, s)

/-- The column formula of a table column, /repo/src/worksheet.rs:8827-8832. -/
def Sheet.writeTableFormula (s : Sheet Fmt) (dflt : Fmt) (rows : List Nat) (col : Nat) (c : TableCol Fmt) : Res Fmt :=
  match c.formula with
  | none => (none, s)
  | some f => forEach rows (fun r s => s.storeFormula r col f (some (c.format.getD dflt))) s

/-- The format of a table column, /repo/src/worksheet.rs:8834-8845. -/
def Sheet.formatTableColumn (s : Sheet Fmt) (t : Table Fmt) (d : Dims) (rows : List Nat) (col : Nat)
    (c : TableCol Fmt) : Sheet Fmt :=
  match c.format with
  | none => s
  | some f =>
    let r := s.formatXfIndex f
    let s := rows.foldl (fun s row => s.updateCellFormat row col r.1) r.2
    if t.showTotalRow && c.totalFunction ≠ .none then s.updateCellFormat d.lastRow col r.1 else s

/-- The body of the column loop of `add_table`, /repo/src/worksheet.rs:8790-8849. -/
def Sheet.writeTableColumn (s : Sheet Fmt) (t : Table Fmt) (dflt : Fmt) (d : Dims) (rows : List Nat) (col : Nat)
    (c : TableCol Fmt) : Res Fmt :=
  Res.andThen (s.writeTableHeader t d col c) fun s =>
  Res.andThen ((s.setWritingAhead true).writeTableTotal t dflt d col c) fun s =>
  Res.andThen (s.writeTableFormula dflt rows col c) fun s =>
  (none, (s.formatTableColumn t d rows col c).setWritingAhead false)

/-- The column loop of `add_table`, /repo/src/worksheet.rs:8790-8849. -/
def Sheet.writeTable (s : Sheet Fmt) (t : Table Fmt) (dflt : Fmt) (d : Dims) (rows : List Nat) : Res Fmt :=
  forEach ((List.range' d.firstCol t.columns.length).zip t.columns) (fun p s => s.writeTableColumn t dflt d rows p.1 p.2) s

/-- `(FilterType, CellRange)` entries of `cells_with_autofilter`, /repo/src/worksheet.rs:1610. -/
structure FilterMark where
  ofTable : Bool
  range : Dims
deriving DecidableEq, Repr

/-- A worksheet with its tables and its autofilter, /repo/src/worksheet.rs:1553-1610. `area` is the range
whose text is `autofilter_area`; `definedName` is the range of `autofilter_defined_name` when in use. -/
structure TSheet (Fmt : Type) where
  sheet : Sheet Fmt
  dflt : Fmt
  ranges : List Dims := []
  index : CellIndex := []
  tables : List (Table Fmt × Dims) := []
  marks : List ((Nat × Nat) × FilterMark) := []
  area : Option Dims := none
  definedName : Option Dims := none

/-- The errors of `add_table` and `autofilter`. -/
inductive TableErr where
  | cell (e : Err)
  | noRow
  | columnName
  | overlaps (new previous : Dims)
  | filterOverlaps (new previous : Dims)
deriving DecidableEq, Repr

/-- The outcome of a call. -/
inductive TRes (Fmt : Type) where
  | ok (s : TSheet Fmt)
  | err (e : TableErr) (s : TSheet Fmt)
  | panic

/-- The header cells marked one by one, for a table (/repo/src/worksheet.rs:8875-8892) or for the
worksheet autofilter (8447-8464), until one is found that the other kind has. -/
def markHeader (ofTable : Bool) (d : Dims) : List Nat → List ((Nat × Nat) × FilterMark) →
    Option Dims × List ((Nat × Nat) × FilterMark)
  | [], m => (none, m)
  | c :: cs, m =>
    let clash := match m.lookup (d.firstRow, c) with
      | some k => if k.ofTable ≠ ofTable then some k.range else none
      | none => none
    match clash with
    | some p => (some p, m)
    | none => markHeader ofTable d cs (((d.firstRow, c), ⟨ofTable, d⟩) :: m)

/-- The columns of a range. -/
def Dims.columns (d : Dims) : List Nat := List.range' d.firstCol (d.lastCol + 1 - d.firstCol)

/-- The end of `add_table`, once the cells are written: the overlap checks,
/repo/src/worksheet.rs:8851-8899. -/
def TSheet.placeTable (s : TSheet Fmt) (d : Dims) (t : Table Fmt) : TRes Fmt :=
  match claimCells s.ranges d.cells s.index with
  | (.taken p, m) => .err (.overlaps d p) { s with index := m }
  | (.panic, _) => .panic
  | (.free, m) =>
    let r := if t.showAutofilter then markHeader true d d.columns s.marks else (none, s.marks)
    match r.1 with
    | some p => .err (.filterOverlaps d p) { s with index := m, marks := r.2 }
    | none => .ok { s with index := m, marks := r.2, ranges := s.ranges ++ [d], tables := s.tables ++ [(t, d)] }

/-- `add_table`, /repo/src/worksheet.rs:8752-8900. -/
def TSheet.addTable (lower : Str → Str) (s : TSheet Fmt) (d : Dims) (t : Table Fmt) : TRes Fmt :=
  if !checkDimensionsOnly d.firstRow d.firstCol || !checkDimensionsOnly d.lastRow d.lastCol then
    .err (.cell .rowColumnLimit) s
  else if d.firstRow > d.lastRow || d.firstCol > d.lastCol then .err (.cell .rowColumnOrder) s
  else if d.firstRow = d.lastRow && t.showHeaderRow then .err .noRow s
  else
    match t.initializeColumns lower d (s.sheet.defaultTableHeaders d t.showHeaderRow) with
    | none => .err .columnName s
    | some t =>
      match t.lastDataRow d with
      | none => .panic
      | some last =>
        let first := t.firstDataRow d
        match s.sheet.writeTable t s.dflt d (List.range' first (last + 1 - first)) with
        | (some e, sh) => .err (.cell e) { s with sheet := sh }
        | (none, sh) => ({ s with sheet := sh } : TSheet Fmt).placeTable d t

/-- `autofilter`, /repo/src/worksheet.rs:8414-8469. -/
def TSheet.autofilter (s : TSheet Fmt) (d : Dims) : TRes Fmt :=
  if !checkDimensionsOnly d.firstRow d.firstCol || !checkDimensionsOnly d.lastRow d.lastCol then
    .err (.cell .rowColumnLimit) s
  else if d.firstRow > d.lastRow || d.firstCol > d.lastCol then .err (.cell .rowColumnOrder) s
  else
    let r := markHeader false d d.columns s.marks
    match r.1 with
    | some p => .err (.filterOverlaps d p) { s with definedName := some d, marks := r.2 }
    | none => .ok { s with definedName := some d, marks := r.2, area := some d }

/-- A call on a worksheet with tables. -/
inductive TOp (Fmt : Type) where
  | cell (op : Op Fmt)
  | table (d : Dims) (t : Table Fmt)
  | autofilter (d : Dims)

/-- The result of one call. -/
def TSheet.call (lower : Str → Str) (s : TSheet Fmt) : TOp Fmt → TRes Fmt
  | .cell op => .ok { s with sheet := (s.sheet.exec op).2 }
  | .table d t => s.addTable lower d t
  | .autofilter d => s.autofilter d

/-- The worksheet after one call; `none` is a panic. -/
def TSheet.exec (lower : Str → Str) (s : TSheet Fmt) (op : TOp Fmt) : Option (TSheet Fmt) :=
  match s.call lower op with
  | .ok s => some s
  | .err _ s => some s
  | .panic => none

/-- A history of calls; `none` if one of them panics. -/
def TSheet.run (lower : Str → Str) (s : TSheet Fmt) (ops : List (TOp Fmt)) : Option (TSheet Fmt) :=
  ops.foldlM (TSheet.exec lower) s

/-! ### The table part -/

/-- `TableStyle::to_string`, /repo/src/table.rs:2277-2343. -/
def TableStyle.text : TableStyle → Str
  | .none => "TableStyleNone".toList
  | .light n => "TableStyleLight".toList ++ showNat n
  | .medium n => "TableStyleMedium".toList ++ showNat n
  | .dark n => "TableStyleDark".toList ++ showNat n

/-- `TableFunction::to_string`, /repo/src/table.rs:2014-2029. -/
def TotalFn.text : TotalFn → Str
  | .none => "None".toList
  | .average => "average".toList
  | .count => "count".toList
  | .countNumbers => "countNums".toList
  | .max => "max".toList
  | .min => "min".toList
  | .sum => "sum".toList
  | .stdDev => "stdDev".toList
  | .var => "var".toList
  | .custom _ => "custom".toList

/-- `to_xml_bool`, /repo/src/utility.rs. -/
def xmlBool (b : Bool) : Str := if b then "1".toList else "0".toList

/-- The attributes of a column, /repo/src/table.rs:1272-1282; `dxf` is the `dxf_index` of the format. -/
def tableColumnAttrs (dxf : Nat → Nat) (i : Nat) (c : TableCol Fmt) : Attrs :=
  [("id".toList, showNat (i + 1)), ("name".toList, c.name)] ++
    (if c.totalLabel ≠ [] then [("totalsRowLabel".toList, c.totalLabel)]
     else if c.totalFunction ≠ .none then [("totalsRowFunction".toList, c.totalFunction.text)] else []) ++
    (if c.format.isSome then [("dataDxfId".toList, showNat (dxf i))] else [])

/-- `write_calculated_column_formula`, /repo/src/table.rs:1287-1290, 1304-1306. -/
def columnFormulaTrees : Option FormulaArg → List Tree
  | some f => [.data "calculatedColumnFormula".toList f.text []]
  | none => []

/-- `write_totals_row_formula`, /repo/src/table.rs:1292-1295, 1309-1311. -/
def totalFormulaTrees : TotalFn → List Tree
  | .custom f => [.data "totalsRowFormula".toList f.text []]
  | _ => []

/-- The children of a column, /repo/src/table.rs:1287-1295. -/
def tableColumnKids (c : TableCol Fmt) : List Tree :=
  columnFormulaTrees c.formula ++ totalFormulaTrees c.totalFunction

/-- `write_column`, /repo/src/table.rs:1271-1301. -/
def tableColumnTree (dxf : Nat → Nat) (i : Nat) (c : TableCol Fmt) : Tree :=
  if (tableColumnKids c).isEmpty then .empty "tableColumn".toList (tableColumnAttrs dxf i c)
  else .node "tableColumn".toList (tableColumnAttrs dxf i c) (tableColumnKids c)

/-- `write_table` to `write_table_style_info`, /repo/src/table.rs:1191-1327. -/
def tableTree (dxf : Nat → Nat) (t : Table Fmt) (d : Dims) : Tree :=
  let name := if t.name = [] then "Table".toList ++ showNat t.index else t.name
  let last := if t.showTotalRow then d.lastRow - 1 else d.lastRow
  .node "table".toList
    ([("xmlns".toList, "http://schemas.openxmlformats.org/spreadsheetml/2006/main".toList),
      ("id".toList, showNat t.index), ("name".toList, name), ("displayName".toList, name),
      ("ref".toList, cellRange d.firstRow d.firstCol d.lastRow d.lastCol)] ++
      (if t.showHeaderRow then [] else [("headerRowCount".toList, "0".toList)]) ++
      (if t.showTotalRow then [("totalsRowCount".toList, "1".toList)] else [("totalsRowShown".toList, "0".toList)]))
    ((if t.showAutofilter && t.showHeaderRow then
        [.empty "autoFilter".toList [("ref".toList, cellRange d.firstRow d.firstCol last d.lastCol)]] else []) ++
      [.node "tableColumns".toList [("count".toList, showNat t.columns.length)]
        (((List.range t.columns.length).zip t.columns).map fun p => tableColumnTree dxf p.1 p.2),
       .empty "tableStyleInfo".toList
        ((if t.style ≠ .none then [("name".toList, t.style.text)] else []) ++
         [("showFirstColumn".toList, xmlBool t.showFirstColumn), ("showLastColumn".toList, xmlBool t.showLastColumn),
          ("showRowStripes".toList, xmlBool t.showBandedRows),
          ("showColumnStripes".toList, xmlBool t.showBandedColumns)])])

end
end Verif
