import Verif.Model.Sheet
/-!
The calls that write a whole row, column or block of cells: `write_row`, `write_column`, `write_row_matrix`,
`write_column_matrix` and the forms with a format, /repo/src/worksheet.rs:2251-2669, and the types of data that they
take, /repo/src/worksheet.rs:20008-20408.
-/
namespace Verif
variable {Fmt : Type} [DecidableEq Fmt]

/-- A value that can be written with `write`: the implementations of `IntoExcelData`,
/repo/src/worksheet.rs:20014-20408. `nothing` is the `None` of an `Option`; `Some(x)`, `Ok(x)` and `Err(x)` are `x`
itself (20356-20408). Numbers are `f64` already; conversions from other types, `Url` and `Decimal` are left out. -/
inductive Datum where
  | num (n : F64)
  | date (n : F64)
  | text (t : Str)
  | bool (b : Bool)
  | formula (fa : FormulaArg)
  | nothing
deriving Repr, DecidableEq

/-- `IntoExcelData::write` (no format) and `IntoExcelData::write_with_format`, /repo/src/worksheet.rs:20014-20408. -/
def Sheet.writeDatum (s : Sheet Fmt) (row col : Nat) (f : Option Fmt) : Datum → Res Fmt
  | .num n => s.storeNumberType row col n f false
  | .date n => s.storeNumberType row col n f true
  | .text t => s.storeString row col t f
  | .bool b => s.storeBoolean row col b f
  | .formula fa => s.storeFormula row col fa f
  | .nothing =>
    match f with
    | none => (none, s)
    | some f => s.storeBlank row col f

/-- What such a call ends in: a result with the sheet that is left, or a panic. -/
inductive SeqRes (Fmt : Type) where
  | done (r : Res Fmt)
  | panic

/-- `n += 1` for an unsigned number below `max + 1`: it panics if overflow is checked for (debug builds) and wraps
around if it is not (release builds). -/
def bump (checked : Bool) (max n : Nat) : Option Nat :=
  if n = max then (if checked then none else some 0) else some (n + 1)

/-- `write_row`, `write_row_with_format`, /repo/src/worksheet.rs:2314-2375. `ColNum` is `u16`. -/
def Sheet.writeRow (checked : Bool) (f : Option Fmt) (row : Nat) : (col : Nat) → List Datum → Sheet Fmt → SeqRes Fmt
  | _, [], s => .done (none, s)
  | col, d :: ds, s =>
    match s.writeDatum row col f d with
    | (some e, s) => .done (some e, s)
    | (none, s) =>
      match bump checked 65535 col with
      | none => .panic
      | some col => Sheet.writeRow checked f row col ds s

/-- `write_column`, `write_column_with_format`, /repo/src/worksheet.rs:2438-2499. `RowNum` is `u32`. -/
def Sheet.writeColumn (checked : Bool) (f : Option Fmt) (col : Nat) : (row : Nat) → List Datum → Sheet Fmt → SeqRes Fmt
  | _, [], s => .done (none, s)
  | row, d :: ds, s =>
    match s.writeDatum row col f d with
    | (some e, s) => .done (some e, s)
    | (none, s) =>
      match bump checked 4294967295 row with
      | none => .panic
      | some row => Sheet.writeColumn checked f col row ds s

/-- `write_row_matrix`, /repo/src/worksheet.rs:2566-2584. -/
def Sheet.writeRowMatrix (checked : Bool) (col : Nat) : (row : Nat) → List (List Datum) → Sheet Fmt → SeqRes Fmt
  | _, [], s => .done (none, s)
  | row, ds :: dss, s =>
    match s.writeRow checked none row col ds with
    | .panic => .panic
    | .done (some e, s) => .done (some e, s)
    | .done (none, s) =>
      match bump checked 4294967295 row with
      | none => .panic
      | some row => Sheet.writeRowMatrix checked col row dss s

/-- `write_column_matrix`, /repo/src/worksheet.rs:2651-2669. -/
def Sheet.writeColumnMatrix (checked : Bool) (row : Nat) : (col : Nat) → List (List Datum) → Sheet Fmt → SeqRes Fmt
  | _, [], s => .done (none, s)
  | col, ds :: dss, s =>
    match s.writeColumn checked none col row ds with
    | .panic => .panic
    | .done (some e, s) => .done (some e, s)
    | .done (none, s) =>
      match bump checked 65535 col with
      | none => .panic
      | some col => Sheet.writeColumnMatrix checked row col dss s

end Verif
