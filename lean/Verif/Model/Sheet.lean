import Verif.Model.Ref
import Verif.Model.BTree
/-!
The worksheet data table: /repo/src/worksheet.rs, cell storage (14969-15650), dimension and
format bookkeeping (15938-16154), row output (18396-18828).

`Fmt` is the type of cell formats; the only operations the storage code uses on it are
equality/hash (as a map key) and `Format::merge`.  Standard and constant-memory mode are both
modelled, selected by flags as in the code.
-/
namespace Verif

/-- `MAX_STRING_LEN`, /repo/src/worksheet.rs:1419. -/
def MAX_STRING_LEN : Nat := 32767

/-- An `f64` cell value: the three special classes and a finite value represented by its
display text (number formatting itself is not modelled). -/
inductive F64 where
  | nan | posInf | negInf
  | finite (text : Str)
deriving Repr, DecidableEq

/-- `CellType`, /repo/src/worksheet.rs:20491-20542; `xf` is `xf_index`, `id` is `string_id`. -/
inductive Cell where
  | number (n : Str) (xf : Nat)
  | dateTime (n : Str) (xf : Nat)
  | string (s : Str) (xf : Nat) (id : Option Nat)
  | rich (s raw : Str) (xf : Nat) (id : Option Nat)
  | inlineString (s : Str) (xf : Nat)
  | formula (f result : Str) (xf : Nat)
  | arrayFormula (f result : Str) (xf : Nat) (isDynamic : Bool) (range : Str)
  | blank (xf : Nat)
  | boolean (b : Bool) (xf : Nat)
  | error (value : Nat) (xf : Nat)
deriving Repr, DecidableEq

/-- The `xf_index` of a cell. -/
def Cell.xf : Cell → Nat
  | .number _ x | .dateTime _ x | .string _ x _ | .rich _ _ x _ | .inlineString _ x
  | .formula _ _ x | .arrayFormula _ _ x _ _ | .blank x | .boolean _ x | .error _ x => x

/-- Assignment to `xf_index`, /repo/src/worksheet.rs:15569-15582 and 15620-15633. -/
def Cell.setXf (x : Nat) : Cell → Cell
  | .number n _ => .number n x
  | .dateTime n _ => .dateTime n x
  | .string s _ i => .string s x i
  | .rich s r _ i => .rich s r x i
  | .inlineString s _ => .inlineString s x
  | .formula f r _ => .formula f r x
  | .arrayFormula f r _ d g => .arrayFormula f r x d g
  | .blank _ => .blank x
  | .boolean b _ => .boolean b x
  | .error v _ => .error v x

/-- The `XlsxError` variants returned by the modelled functions, /repo/src/error.rs. -/
inductive Err where
  | rowColumnLimit | rowColumnOrder | maxStringLength | parameter | overlap
  | sheetnameReused | sheetName | other
deriving Repr, DecidableEq

/-- `CellRange` as used for `dimensions`; new sheets start at
`(ROW_MAX, COL_MAX, 0, 0)`, /repo/src/worksheet.rs:20459-20468 and 1725. -/
structure Dims where
  firstRow : Nat
  firstCol : Nat
  lastRow : Nat
  lastCol : Nat
deriving Repr, DecidableEq

/-- `RowOptions`, /repo/src/worksheet.rs:20470-20478 (height as display text). -/
structure RowOpt (Fmt : Type) where
  height : Str
  xf : Nat
  hidden : Bool
  level : Nat
  collapsed : Bool
  fmt : Option Fmt

/-- `ColOptions`, /repo/src/worksheet.rs:20480-20489 (only the fields used by cell output). -/
structure ColOpt (Fmt : Type) where
  xf : Nat
  fmt : Option Fmt

/-- `SharedStringsTable`, /repo/src/shared_strings_table.rs:18-22; the hash map as a list of
pairs. -/
structure SST where
  count : Nat
  unique : Nat
  strings : List (Str × Nat)
deriving Repr, DecidableEq

/-- `SharedStringsTable::new`, /repo/src/shared_strings_table.rs:30-36. -/
def SST.new : SST := ⟨0, 0, []⟩

/-- `shared_string_index`, /repo/src/shared_strings_table.rs:39-47. -/
def SST.index (t : SST) (key : Str) : Nat × SST :=
  match t.strings.lookup key with
  | some i => (i, { t with count := t.count + 1 })
  | none => (t.unique, ⟨t.count + 1, t.unique + 1, (key, t.unique) :: t.strings⟩)

/-- Worksheet flags: /repo/src/worksheet.rs:1528-1535, set in /repo/src/workbook.rs:570-650. -/
structure Cfg where
  constMem : Bool := false
  inlineStrings : Bool := false
  globalXfs : Bool := false
  globalSst : Bool := false
  nanText : Str := "NAN".toList
  infText : Str := "INF".toList
  negInfText : Str := "-INF".toList
  defaultResult : Str := "0".toList
deriving Repr, DecidableEq

/-- One `<row>` element: row number, options, and the cells (column, cell, written style
index) if the row has data (`none` is the empty `<row/>` tag). -/
structure RowOut (Fmt : Type) where
  row : Nat
  opt : Option (RowOpt Fmt)
  cells : Option (List (Nat × Cell × Nat))

/-- The part of `Worksheet` involved in storing and writing cells,
/repo/src/worksheet.rs:1480-1640.  `sst` and `gxf` are the tables shared with the workbook
(`string_table`, `workbook_xf_indices`).  `merge` is `Format::merge`. -/
structure Sheet (Fmt : Type) where
  cfg : Cfg
  merge : Fmt → Fmt → Fmt
  dims : Dims
  table : BMap (BMap Cell)
  writeAhead : BMap (BMap Cell)
  currentRow : Nat
  writingAhead : Bool
  out : List (RowOut Fmt)
  xfFormats : List Fmt
  xfIndices : List (Fmt × Nat)
  globalXf : List Nat
  changedRows : BMap (RowOpt Fmt)
  changedCols : BMap (ColOpt Fmt)
  notes : BMap (BMap Unit)
  defaultHeight : Str
  hasLocalSst : Bool
  sst : SST
  gxf : List (Fmt × Nat)

/-- `Worksheet::new`, /repo/src/worksheet.rs:1721-1890: one default format, empty tables. -/
def Sheet.new {Fmt : Type} (cfg : Cfg) (merge : Fmt → Fmt → Fmt) (dflt : Fmt) : Sheet Fmt where
  cfg := cfg
  merge := merge
  dims := ⟨ROW_MAX, COL_MAX, 0, 0⟩
  table := []
  writeAhead := []
  currentRow := 0
  writingAhead := false
  out := []
  xfFormats := [dflt]
  xfIndices := [(dflt, 0)]
  globalXf := []
  changedRows := []
  changedCols := []
  notes := []
  defaultHeight := "15".toList
  hasLocalSst := false
  sst := SST.new
  gxf := [(dflt, 0)]

section
variable {Fmt : Type} [DecidableEq Fmt]

/-- Result of an API call: the error, if any, and the sheet afterwards. -/
abbrev Res (Fmt : Type) := Option Err × Sheet Fmt

/-- Rust `?` sequencing. -/
def Res.andThen (r : Res Fmt) (f : Sheet Fmt → Res Fmt) : Res Fmt :=
  match r.1 with
  | some e => (some e, r.2)
  | none => f r.2

/-- A `for` loop whose body uses `?`. -/
def forEach {α : Type} (l : List α) (f : α → Sheet Fmt → Res Fmt) (s : Sheet Fmt) : Res Fmt :=
  match l with
  | [] => (none, s)
  | a :: l => Res.andThen (f a s) (forEach l f)

/-- `check_dimensions`, /repo/src/worksheet.rs:15940-15965. -/
def Sheet.checkDimensions (s : Sheet Fmt) (row col : Nat) : Bool × Sheet Fmt :=
  if row ≥ ROW_MAX then (false, s)
  else if col ≥ COL_MAX then (false, s)
  else
    let d := { s.dims with firstRow := min s.dims.firstRow row, firstCol := min s.dims.firstCol col }
    let d :=
      if s.cfg.constMem then
        if row ≥ s.currentRow then
          { d with lastRow := max d.lastRow row, lastCol := max d.lastCol col }
        else d
      else { d with lastRow := max d.lastRow row, lastCol := max d.lastCol col }
    (true, { s with dims := d })

/-- `check_dimensions_only`, /repo/src/worksheet.rs:15970-15980. -/
def checkDimensionsOnly (row col : Nat) : Bool := row < ROW_MAX && col < COL_MAX

/-- `format_xf_index` (global and local variants), /repo/src/worksheet.rs:15986-16031. -/
def Sheet.formatXfIndex (s : Sheet Fmt) (f : Fmt) : Nat × Sheet Fmt :=
  if s.cfg.globalXfs then
    match s.gxf.lookup f with
    | some i => (i, s)
    | none => (s.gxf.length, { s with gxf := (f, s.gxf.length) :: s.gxf })
  else
    match s.xfIndices.lookup f with
    | some i => (i, s)
    | none =>
      (s.xfFormats.length,
        { s with xfFormats := s.xfFormats ++ [f],
                 xfIndices := (f, s.xfFormats.length) :: s.xfIndices })

/-- `row_col_format`, /repo/src/worksheet.rs:16053-16074. -/
def Sheet.rowColFormat (s : Sheet Fmt) (row col : Nat) : Nat × Sheet Fmt :=
  match s.changedCols.get col with
  | none => (0, s)
  | some co =>
    match co.fmt with
    | none => (0, s)
    | some cf =>
      match s.changedRows.get row with
      | none => (0, s)
      | some ro =>
        match ro.fmt with
        | none => (0, s)
        | some rf => s.formatXfIndex (s.merge rf cf)

/-- The common `let xf_index = match format {...}`, e.g. /repo/src/worksheet.rs:15020-15023. -/
def Sheet.xfFor (s : Sheet Fmt) (row col : Nat) (f : Option Fmt) : Nat × Sheet Fmt :=
  match f with
  | some f => s.formatXfIndex f
  | none => s.rowColFormat row col

/-- `insert_cell_to_table`, /repo/src/worksheet.rs:15538-15557. -/
def insertCellToTable (row col : Nat) (cell : Cell) (t : BMap (BMap Cell)) : BMap (BMap Cell) :=
  match t.get row with
  | some columns => t.insert row (columns.insert col cell)
  | none => t.insert row [(col, cell)]

/-- `get_global_xf_index`, /repo/src/worksheet.rs:16034-16040.  The code indexes
`global_xf_indices` and would panic outside it; `C13` proves the index is always inside. -/
def Sheet.getGlobalXfIndex (s : Sheet Fmt) (xf : Nat) : Nat :=
  if s.cfg.globalXfs then xf else s.globalXf.getD xf 0

/-- `get_cell_xf_index`, /repo/src/worksheet.rs:16124-16154. -/
def Sheet.getCellXfIndex (s : Sheet Fmt) (xf : Nat) (ro : Option (RowOpt Fmt)) (col : Nat) : Nat :=
  let xf := if xf = 0 then (match ro with | some o => o.xf | none => xf) else xf
  let xf := if xf = 0 then (match s.changedCols.get col with | some o => o.xf | none => xf) else xf
  if xf ≠ 0 then s.getGlobalXfIndex xf else xf

/-- Which cells the writers emit: string cells without an id are skipped
(/repo/src/worksheet.rs:18486, 18708); rich strings are written inline, hence always, in
constant memory mode (18720). -/
def Cell.isWritten (constMem : Bool) : Cell → Bool
  | .string _ _ none => false
  | .rich _ _ _ none => constMem
  | _ => true

/-- The style index written for a cell.  Inline strings in the standard writer
(/repo/src/worksheet.rs:18498-18508) use the stored index; every other case resolves it. -/
def Sheet.cellStyle (s : Sheet Fmt) (ro : Option (RowOpt Fmt)) (col : Nat) (c : Cell) : Nat :=
  match c with
  | .inlineString _ xf =>
    if s.cfg.constMem then s.getCellXfIndex xf ro col else xf
  | c => s.getCellXfIndex c.xf ro col

/-- The inner loop writing the cells of one row, /repo/src/worksheet.rs:18453-18574 (standard)
and 18684-18816 (constant memory). -/
def Sheet.writeCells (s : Sheet Fmt) (ro : Option (RowOpt Fmt)) (cols : BMap Cell) :
    List (Nat × Cell × Nat) :=
  (cols.filter fun p => p.2.isWritten s.cfg.constMem).map fun p =>
    (p.1, p.2, s.cellStyle ro p.1 p.2)

/-- `flush_data_row`, /repo/src/worksheet.rs:18652-18828.  Note that `mem::swap` with an empty
map followed by dropping it discards every row of the data table. -/
def Sheet.flushDataRow (s : Sheet Fmt) (next : Nat) : Sheet Fmt :=
  let ro := s.changedRows.get s.currentRow
  let out :=
    match s.table.get s.currentRow with
    | none => if ro.isSome then s.out ++ [⟨s.currentRow, ro, none⟩] else s.out
    | some columns => s.out ++ [⟨s.currentRow, ro, some (s.writeCells ro columns)⟩]
  let table := match s.writeAhead.get next with
    | some columns => [(next, columns)]
    | none => []
  { s with out := out, table := table, writeAhead := s.writeAhead.remove next, currentRow := next }

/-- `sort_unstable` followed by `dedup`. -/
def sortDedup (l : List Nat) : List Nat :=
  (l.foldl (fun (m : BMap Unit) k => m.insert k ()) []).map Prod.fst

/-- `flush_to_row`, /repo/src/worksheet.rs:18622-18647. -/
def Sheet.flushToRow (s : Sheet Fmt) (next : Nat) : Sheet Fmt :=
  let ahead := (s.writeAhead.map Prod.fst).filter (· < next)
  let changed := (List.range' (s.currentRow + 1) (next - (s.currentRow + 1))).filter
    (fun r => (s.changedRows.get r).isSome)
  let s := (sortDedup (ahead ++ changed)).foldl Sheet.flushDataRow s
  s.flushDataRow next

/-- `flush_last_row`, /repo/src/worksheet.rs:18586-18618. -/
def Sheet.flushLastRow (s : Sheet Fmt) : Sheet Fmt :=
  let remaining := s.writeAhead.map Prod.fst
  let maxChanged := (s.changedRows.map Prod.fst).foldl max 0
  let remaining :=
    if maxChanged > s.currentRow then
      remaining ++ (List.range' s.currentRow (maxChanged + 1 - s.currentRow)).filter
        (fun r => (s.changedRows.get r).isSome)
    else remaining
  let remaining := sortDedup (remaining ++ [s.currentRow])
  let remaining :=
    if (s.table.get s.currentRow).isSome then remaining ++ [1 + remaining.getLastD 0]
    else remaining
  remaining.foldl Sheet.flushDataRow s

/-- `insert_cell`, /repo/src/worksheet.rs:15504-15535. -/
def Sheet.insertCell (s : Sheet Fmt) (row col : Nat) (cell : Cell) : Sheet Fmt :=
  if s.cfg.constMem then
    if row < s.currentRow then s
    else if row > s.currentRow then
      if s.writingAhead then
        { s with writeAhead := insertCellToTable row col cell s.writeAhead }
      else
        let s := s.flushToRow row
        { s with table := insertCellToTable row col cell s.table }
    else { s with table := insertCellToTable row col cell s.table }
  else { s with table := insertCellToTable row col cell s.table }

/-- `store_blank`, /repo/src/worksheet.rs:15289-15315. -/
def Sheet.storeBlank (s : Sheet Fmt) (row col : Nat) (f : Fmt) : Res Fmt :=
  match s.checkDimensions row col with
  | (false, s) => (some .rowColumnLimit, s)
  | (true, s) =>
    let (xf, s) := s.formatXfIndex f
    let (xf, s) := if xf = 0 then s.rowColFormat row col else (xf, s)
    (none, s.insertCell row col (.blank xf))

/-- `store_string`, /repo/src/worksheet.rs:15038-15099. -/
def Sheet.storeString (s : Sheet Fmt) (row col : Nat) (str : Str) (f : Option Fmt) : Res Fmt :=
  if str = [] then
    match f with
    | some f => s.storeBlank row col f
    | none => (none, s)
  else
    match s.checkDimensions row col with
    | (false, s) => (some .rowColumnLimit, s)
    | (true, s) =>
      if str.length > MAX_STRING_LEN then (some .maxStringLength, s)
      else
        let (xf, s) := s.xfFor row col f
        if s.cfg.inlineStrings then (none, s.insertCell row col (.inlineString str xf))
        else
          let (id, sst) :=
            if s.cfg.globalSst then
              let r := s.sst.index str
              (some r.1, r.2)
            else (none, s.sst)
          let s := { s with sst := sst, hasLocalSst := true }
          (none, s.insertCell row col (.string str xf id))

/-- `store_rich_string`, /repo/src/worksheet.rs:15102-15159. -/
def Sheet.storeRich (s : Sheet Fmt) (row col : Nat) (str raw : Str) (f : Option Fmt) : Res Fmt :=
  if str = [] then
    match f with
    | some f => s.storeBlank row col f
    | none => (none, s)
  else
    match s.checkDimensions row col with
    | (false, s) => (some .rowColumnLimit, s)
    | (true, s) =>
      if str.length > MAX_STRING_LEN then (some .maxStringLength, s)
      else
        let (xf, s) := s.xfFor row col f
        let (id, sst) :=
          if s.cfg.globalSst then
            let r := s.sst.index str
            (some r.1, r.2)
          else (none, s.sst)
        let s := { s with sst := sst }
        let s := s.insertCell row col (.rich str raw xf id)
        (none, if s.cfg.inlineStrings then s else { s with hasLocalSst := true })

/-- `store_number_type`, /repo/src/worksheet.rs:14992-15035. -/
def Sheet.storeNumberType (s : Sheet Fmt) (row col : Nat) (n : F64) (f : Option Fmt)
    (isDate : Bool) : Res Fmt :=
  match s.checkDimensions row col with
  | (false, s) => (some .rowColumnLimit, s)
  | (true, s) =>
    match n with
    | .nan => s.storeString row col s.cfg.nanText f
    | .posInf => s.storeString row col s.cfg.infText f
    | .negInf => s.storeString row col s.cfg.negInfText f
    | .finite t =>
      let (xf, s) := s.xfFor row col f
      (none, s.insertCell row col (if isDate then .dateTime t xf else .number t xf))

/-- The fields of `Formula` that storage uses, /repo/src/formula.rs:737-743. -/
structure FormulaArg where
  text : Str
  result : Str := []
  dynamic : Bool := false
deriving Repr, DecidableEq

/-- `store_array_formula`, /repo/src/worksheet.rs:15206-15286. -/
def Sheet.storeArrayFormula (s : Sheet Fmt) (r1 c1 r2 c2 : Nat) (fa : FormulaArg)
    (f : Option Fmt) (isDynamic : Bool) : Res Fmt :=
  match s.checkDimensions r1 c1 with
  | (false, s) => (some .rowColumnLimit, s)
  | (true, s) =>
    match s.checkDimensions r2 c2 with
    | (false, s) => (some .rowColumnLimit, s)
    | (true, s) =>
      if r1 > r2 || c1 > c2 then (some .rowColumnOrder, s)
      else
        let (xf, s) := s.xfFor r1 c1 f
        let range := cellRange r1 c1 r2 c2
        let isDynamic := isDynamic || fa.dynamic
        let result := if fa.result = [] then s.cfg.defaultResult else fa.result
        let s := s.insertCell r1 c1 (.arrayFormula fa.text result xf isDynamic range)
        let zero : F64 := .finite "0".toList
        Res.andThen
          (forEach (List.range' (c1 + 1) (c2 - c1))
            (fun c s => s.storeNumberType r1 c zero f false) s)
          fun s =>
            let s := if s.cfg.constMem then { s with writingAhead := true } else s
            Res.andThen
              (forEach (List.range' (r1 + 1) (r2 - r1))
                (fun r s => forEach (List.range' c1 (c2 + 1 - c1))
                  (fun c s => s.storeNumberType r c zero f false) s) s)
              fun s => (none, if s.cfg.constMem then { s with writingAhead := false } else s)

/-- `store_formula`, /repo/src/worksheet.rs:15162-15202.  (A dynamic function is passed on
with format `None`, line 15171: finding F2.) -/
def Sheet.storeFormula (s : Sheet Fmt) (row col : Nat) (fa : FormulaArg) (f : Option Fmt) :
    Res Fmt :=
  if fa.dynamic then s.storeArrayFormula row col row col fa none true
  else
    match s.checkDimensions row col with
    | (false, s) => (some .rowColumnLimit, s)
    | (true, s) =>
      let (xf, s) := s.xfFor row col f
      let result := if fa.result = [] then s.cfg.defaultResult else fa.result
      (none, s.insertCell row col (.formula fa.text result xf))

/-- `store_boolean`, /repo/src/worksheet.rs:15318-15342. -/
def Sheet.storeBoolean (s : Sheet Fmt) (row col : Nat) (b : Bool) (f : Option Fmt) : Res Fmt :=
  match s.checkDimensions row col with
  | (false, s) => (some .rowColumnLimit, s)
  | (true, s) =>
    let (xf, s) := s.xfFor row col f
    (none, s.insertCell row col (.boolean b xf))

/-- `insert_cell_format`, /repo/src/worksheet.rs:15561-15607. -/
def Sheet.insertCellFormat (s : Sheet Fmt) (row col xf : Nat) : Sheet Fmt :=
  match s.table.get row with
  | some columns =>
    match columns.get col with
    | some cell => { s with table := s.table.insert row (columns.insert col (cell.setXf xf)) }
    | none => { s with table := s.table.insert row (columns.insert col (.blank xf)) }
  | none => if xf > 0 then { s with table := s.table.insert row [(col, .blank xf)] } else s

/-- `set_cell_format`, /repo/src/worksheet.rs:10230-10248. -/
def Sheet.setCellFormat (s : Sheet Fmt) (row col : Nat) (f : Fmt) : Res Fmt :=
  match s.checkDimensions row col with
  | (false, s) => (some .rowColumnLimit, s)
  | (true, s) =>
    let (xf, s) := s.formatXfIndex f
    (none, s.insertCellFormat row col xf)

/-- `set_range_format`, /repo/src/worksheet.rs:10333-10364 (the dimensions are *not*
extended: finding F54). -/
def Sheet.setRangeFormat (s : Sheet Fmt) (r1 c1 r2 c2 : Nat) (f : Fmt) : Res Fmt :=
  if !checkDimensionsOnly r1 c1 || !checkDimensionsOnly r2 c2 then (some .rowColumnLimit, s)
  else if r1 > r2 || c1 > c2 then (some .rowColumnOrder, s)
  else
    let (xf, s) := s.formatXfIndex f
    (none, (List.range' r1 (r2 + 1 - r1)).foldl
      (fun s r => (List.range' c1 (c2 + 1 - c1)).foldl (fun s c => s.insertCellFormat r c xf) s) s)

/-- `clear_cell`, /repo/src/worksheet.rs:10560-10569 with 15638-15644. -/
def Sheet.clearCell (s : Sheet Fmt) (row col : Nat) : Sheet Fmt :=
  if !checkDimensionsOnly row col then s
  else match s.table.get row with
    | none => s
    | some columns => { s with table := s.table.insert row (columns.remove col) }

/-- `clear_cell_format`, /repo/src/worksheet.rs:10638-10647 with 15611-15634. -/
def Sheet.clearCellFormat (s : Sheet Fmt) (row col : Nat) : Sheet Fmt :=
  if !checkDimensionsOnly row col then s
  else match s.table.get row with
    | none => s
    | some columns =>
      match columns.get col with
      | none => s
      | some cell => { s with table := s.table.insert row (columns.insert col (cell.setXf 0)) }

/-- `get_min_row`, /repo/src/worksheet.rs:14708-14714. -/
def Sheet.getMinRow (s : Sheet Fmt) : Nat := if s.dims.firstRow = ROW_MAX then 0 else s.dims.firstRow
/-- `get_min_col`, /repo/src/worksheet.rs:14717-14723. -/
def Sheet.getMinCol (s : Sheet Fmt) : Nat := if s.dims.firstCol = COL_MAX then 0 else s.dims.firstCol

/-- `set_row_format`, /repo/src/worksheet.rs:6576-6609. -/
def Sheet.setRowFormat (s : Sheet Fmt) (row : Nat) (f : Fmt) : Res Fmt :=
  match s.checkDimensions row s.getMinCol with
  | (false, s) => (some .rowColumnLimit, s)
  | (true, s) =>
    let (xf, s) := s.formatXfIndex f
    match s.changedRows.get row with
    | some o => (none, { s with changedRows := s.changedRows.insert row { o with xf := xf } })
    | none =>
      (none, { s with changedRows :=
        s.changedRows.insert row ⟨s.defaultHeight, xf, false, 0, false, some f⟩ })

/-- `set_column_format`, /repo/src/worksheet.rs:8039-8073. -/
def Sheet.setColumnFormat (s : Sheet Fmt) (col : Nat) (f : Fmt) : Res Fmt :=
  match s.checkDimensions s.getMinRow col with
  | (false, s) => (some .rowColumnLimit, s)
  | (true, s) =>
    let (xf, s) := s.formatXfIndex f
    match s.changedCols.get col with
    | some o => (none, { s with changedCols := s.changedCols.insert col { o with xf := xf } })
    | none => (none, { s with changedCols := s.changedCols.insert col ⟨xf, some f⟩ })

/-- `set_row_height`, /repo/src/worksheet.rs:6416-6455 (non-zero height). -/
def Sheet.setRowHeight (s : Sheet Fmt) (row : Nat) (h : Str) : Res Fmt :=
  match s.checkDimensions row s.getMinCol with
  | (false, s) => (some .rowColumnLimit, s)
  | (true, s) =>
    match s.changedRows.get row with
    | some o => (none, { s with changedRows := s.changedRows.insert row { o with height := h } })
    | none =>
      (none, { s with changedRows := s.changedRows.insert row ⟨h, 0, false, 0, false, none⟩ })

/-- `set_row_hidden`, /repo/src/worksheet.rs:7606-7632. -/
def Sheet.setRowHidden (s : Sheet Fmt) (row : Nat) : Res Fmt :=
  match s.checkDimensions row s.getMinCol with
  | (false, s) => (some .rowColumnLimit, s)
  | (true, s) =>
    match s.changedRows.get row with
    | some o => (none, { s with changedRows := s.changedRows.insert row { o with hidden := true } })
    | none =>
      (none, { s with changedRows :=
        s.changedRows.insert row ⟨s.defaultHeight, 0, true, 0, false, none⟩ })

/-- `insert_note`, /repo/src/worksheet.rs:5745-5787 (position only). -/
def Sheet.insertNote (s : Sheet Fmt) (row col : Nat) (tooLong : Bool) : Res Fmt :=
  match s.checkDimensions row col with
  | (false, s) => (some .rowColumnLimit, s)
  | (true, s) =>
    if tooLong then (some .maxStringLength, s)
    else match s.notes.get row with
      | some cs => (none, { s with notes := s.notes.insert row (cs.insert col ()) })
      | none => (none, { s with notes := s.notes.insert row [(col, ())] })

/-- The worksheet API calls that store cells, formats and row/column settings. -/
inductive Op (Fmt : Type) where
  | number (row col : Nat) (n : F64) (f : Option Fmt)
  | dateTime (row col : Nat) (n : F64) (f : Option Fmt)
  | string (row col : Nat) (s : Str) (f : Option Fmt)
  | rich (row col : Nat) (s raw : Str) (f : Option Fmt)
  | formula (row col : Nat) (fa : FormulaArg) (f : Option Fmt)
  | arrayFormula (r1 c1 r2 c2 : Nat) (fa : FormulaArg) (f : Option Fmt) (isDynamic : Bool)
  | blank (row col : Nat) (f : Fmt)
  | boolean (row col : Nat) (b : Bool) (f : Option Fmt)
  | cellFormat (row col : Nat) (f : Fmt)
  | rangeFormat (r1 c1 r2 c2 : Nat) (f : Fmt)
  | clearCell (row col : Nat)
  | clearFormat (row col : Nat)
  | rowFormat (row : Nat) (f : Fmt)
  | columnFormat (col : Nat) (f : Fmt)
  | rowHeight (row : Nat) (h : Str)
  | rowHidden (row : Nat)
  | note (row col : Nat) (tooLong : Bool)

/-- Execute one API call (the public functions only forward to the `store_*` functions). -/
def Sheet.exec (s : Sheet Fmt) : Op Fmt → Res Fmt
  | .number r c n f => s.storeNumberType r c n f false
  | .dateTime r c n f => s.storeNumberType r c n f true
  | .string r c t f => s.storeString r c t f
  | .rich r c t raw f => s.storeRich r c t raw f
  | .formula r c fa f => s.storeFormula r c fa f
  | .arrayFormula r1 c1 r2 c2 fa f d => s.storeArrayFormula r1 c1 r2 c2 fa f d
  | .blank r c f => s.storeBlank r c f
  | .boolean r c b f => s.storeBoolean r c b f
  | .cellFormat r c f => s.setCellFormat r c f
  | .rangeFormat r1 c1 r2 c2 f => s.setRangeFormat r1 c1 r2 c2 f
  | .clearCell r c => (none, s.clearCell r c)
  | .clearFormat r c => (none, s.clearCellFormat r c)
  | .rowFormat r f => s.setRowFormat r f
  | .columnFormat c f => s.setColumnFormat c f
  | .rowHeight r h => s.setRowHeight r h
  | .rowHidden r => s.setRowHidden r
  | .note r c t => s.insertNote r c t

/-- Execute a history of API calls; errors are reported to the caller and the sheet goes on
being used. -/
def Sheet.run (s : Sheet Fmt) (ops : List (Op Fmt)) : Sheet Fmt :=
  ops.foldl (fun s op => (s.exec op).2) s

/-- `write_data_table`, /repo/src/worksheet.rs:18425-18581: one entry per `<row>` element. -/
def Sheet.writeDataTable (s : Sheet Fmt) : List (RowOut Fmt) :=
  (List.range' s.dims.firstRow (s.dims.lastRow + 1 - s.dims.firstRow)).filterMap fun r =>
    let ro := s.changedRows.get r
    match s.table.get r with
    | none => if ro.isSome || (s.notes.get r).isSome then some ⟨r, ro, none⟩ else none
    | some columns => some ⟨r, ro, some (s.writeCells ro columns)⟩

/-- `update_string_table_ids`, one cell, /repo/src/worksheet.rs:18405-18418. -/
def Cell.assignId (c : Cell) (t : SST) : Cell × SST :=
  match c with
  | .string s x none => let r := t.index s; (.string s x (some r.1), r.2)
  | .rich s raw x none => let r := t.index s; (.rich s raw x (some r.1), r.2)
  | c => (c, t)

/-- Inner loop of `update_string_table_ids`, /repo/src/worksheet.rs:18404-18419. -/
def assignIdsRow : BMap Cell → SST → BMap Cell × SST
  | [], t => ([], t)
  | (k, c) :: m, t =>
    let r := c.assignId t
    let q := assignIdsRow m r.2
    ((k, r.1) :: q.1, q.2)

/-- Outer loop of `update_string_table_ids`, /repo/src/worksheet.rs:18403-18420. -/
def assignIdsTable : BMap (BMap Cell) → SST → BMap (BMap Cell) × SST
  | [], t => ([], t)
  | (k, m) :: rest, t =>
    let r := assignIdsRow m t
    let q := assignIdsTable rest r.2
    ((k, r.1) :: q.1, q.2)

/-- `update_string_table_ids`, /repo/src/worksheet.rs:18396-18421. -/
def Sheet.updateStringTableIds (s : Sheet Fmt) (t : SST) : Sheet Fmt × SST :=
  if !s.hasLocalSst then (s, t)
  else
    let r := assignIdsTable s.table t
    ({ s with table := r.1 }, r.2)

end
end Verif
