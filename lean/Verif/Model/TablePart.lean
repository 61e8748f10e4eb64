import Verif.Model.Table
/-!
The tables of a workbook when it is saved: `prepare_tables` (/repo/src/workbook.rs:2352-2376),
`prepare_worksheet_tables` (/repo/src/worksheet.rs:16536-16560) and `write_table_files`
(/repo/src/packager.rs:1040-1054). `lower` stands for `str::to_lowercase`; no property of it is assumed.
-/
namespace Verif

/-- A table as it waits in a worksheet: the table, its range, and for each column the `dxf_index` of its
format (/repo/src/format.rs, `Format::dxf_index`; it counts only for a column with a format). -/
structure PTable (Fmt : Type) where
  table : Table Fmt
  range : Dims
  dxf : List Nat := []
deriving DecidableEq

/-- The tables of a worksheet with `global_dxf_indices`, /repo/src/worksheet.rs:1560. -/
structure SaveSheet (Fmt : Type) where
  tables : List (PTable Fmt)
  globalDxf : List Nat := []
deriving DecidableEq

section
variable {Fmt : Type}

/-- The column loop, /repo/src/worksheet.rs:16544-16548: the index of a column with a format is looked up in
`global_dxf_indices`; `none` is the panic of an index out of bounds. -/
def remapDxf (g : List Nat) : List (TableCol Fmt) → List Nat → Option (List Nat)
  | [], dxf => some dxf
  | c :: cs, dxf =>
    if c.format.isSome then
      match g[dxf.headD 0]? with
      | none => none
      | some j => (remapDxf g cs dxf.tail).map (j :: ·)
    else (remapDxf g cs dxf.tail).map (dxf.headD 0 :: ·)

/-- The body of the table loop, /repo/src/worksheet.rs:16538-16548. -/
def PTable.prepare (g : List Nat) (id : Nat) (p : PTable Fmt) : Option (PTable Fmt) :=
  (remapDxf g p.table.columns p.dxf).map fun dxf =>
    { p with
      table := { p.table with index := id,
                              name := if p.table.name = [] then "Table".toList ++ showNat id else p.table.name }
      dxf := dxf }

/-- The table loop of `prepare_worksheet_tables`, /repo/src/worksheet.rs:16537-16557 (without the
relationships, which are in `Model/Package.lean`). -/
def prepareSheetTables (g : List Nat) : Nat → List (PTable Fmt) → Option (List (PTable Fmt))
  | _, [] => some []
  | id, p :: ps =>
    match p.prepare g id with
    | none => none
    | some p => (prepareSheetTables g (id + 1) ps).map (p :: ·)

/-- The sheet loop of `prepare_tables`, /repo/src/workbook.rs:2358-2362. -/
def prepareAllTables : Nat → List (SaveSheet Fmt) → Option (List (SaveSheet Fmt))
  | _, [] => some []
  | id, s :: ss =>
    match prepareSheetTables s.globalDxf id s.tables with
    | none => none
    | some ts => (prepareAllTables (id + ts.length) ss).map ({ s with tables := ts } :: ·)

/-- The check for repeated names, /repo/src/workbook.rs:2365-2373: the first repeated name. -/
def repeatedName (lower : Str → Str) : List Str → List Str → Option Str
  | _, [] => none
  | seen, n :: ns => if seen.contains (lower n) then some n else repeatedName lower (lower n :: seen) ns

/-- How `prepare_tables` ends; in each case the worksheets have been changed. -/
inductive PrepRes (Fmt : Type) where
  | ok (sheets : List (SaveSheet Fmt))
  | nameReused (name : Str) (sheets : List (SaveSheet Fmt))
  | panic
deriving DecidableEq

/-- `prepare_tables`, /repo/src/workbook.rs:2352-2376. -/
def prepareTables (lower : Str → Str) (sheets : List (SaveSheet Fmt)) : PrepRes Fmt :=
  match prepareAllTables 1 sheets with
  | none => .panic
  | some sheets =>
    match repeatedName lower [] ((sheets.flatMap (·.tables)).map (·.table.name)) with
    | some n => .nameReused n sheets
    | none => .ok sheets

/-- `write_table_files`, /repo/src/packager.rs:1040-1054: the parts `xl/tables/table1.xml`, ... in order. -/
def tableParts (sheets : List (SaveSheet Fmt)) : List (Str × Str) :=
  ((List.range (sheets.flatMap (·.tables)).length).zip (sheets.flatMap (·.tables))).map fun q =>
    ("xl/tables/table".toList ++ showNat (q.1 + 1) ++ ".xml".toList,
     writePart (tableTree (fun i => q.2.dxf.getD i 0) q.2.table q.2.range))

end
end Verif
