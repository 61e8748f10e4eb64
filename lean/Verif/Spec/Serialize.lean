import Verif.Model.Serialize
import Verif.Spec.Sheet
/-!
Specification of serialization, from the history of calls alone: which cells hold the headers and
the fields of the records.  No state is kept: the place of a record is found by looking back for
the last headers of its struct and counting the records since.
-/
namespace Verif.Spec
open Verif

/-- The value of a field that is not a structure. -/
inductive Leaf where
  | boolean (b : Bool)
  | number (n : F64)
  | text (s : Str)
  /-- `None` or `()` -/
  | empty
  /-- a byte array, which has no place in a worksheet -/
  | bytes
deriving Repr, DecidableEq

/-- A record: the name of the struct and its fields. -/
structure Rec where
  struct : Str
  fields : List (Str × Leaf)
deriving Repr, DecidableEq

/-- A scalar value, possibly inside `Some` or a newtype. -/
def leafOf : SerValue → Option Leaf
  | .boolean b => some (.boolean b)
  | .number n => some (.number n)
  | .text s => some (.text s)
  | .none => some .empty
  | .bytes => some .bytes
  | .wrap v => leafOf v
  | _ => none

/-- A struct all of whose fields are scalars. -/
def recordOf : SerValue → Option Rec
  | .struct name fs => do
    let ls ← fs.mapM fun p => (leafOf p.2).map fun l => (p.1, l)
    some ⟨name, ls⟩
  | _ => none

mutual
/-- The records of a value: one struct, or a sequence (of sequences...) of them. -/
def recordsOf : SerValue → Option (List Rec)
  | .struct name fs => do
    let r ← recordOf (.struct name fs)
    some [r]
  | .wrap v => recordsOf v
  | .seq vs => recordsOfAll vs
  | _ => none
/-- The records of a list of values. -/
def recordsOfAll : List SerValue → Option (List Rec)
  | [] => some []
  | v :: vs => do
    let a ← recordsOf v
    let b ← recordsOfAll vs
    some (a ++ b)
end

/-- A header declaration: the struct, the first cell, whether headers are written, the format of
the header row, the fields in the order of their columns, and whether a table was asked for. -/
structure Decl (Fmt : Type) where
  struct : Str
  row : Nat
  col : Nat
  headers : Bool
  headerFmt : Option Fmt
  fields : List (SerField Fmt)
  table : Bool

/-- A history of serialization in single steps. -/
inductive SerEvent (Fmt : Type) where
  | cell (op : Op Fmt)
  | declare (d : Decl Fmt)
  | record (r : Rec)

section
variable {Fmt : Type}

/-- The last custom settings given for a field. -/
def settingsOf (custom : List (SerField Fmt)) (name : Str) : Option (SerField Fmt) :=
  custom.reverse.find? fun c => c.name = name

/-- The columns of a struct with the given fields: all its fields in order with their custom
settings, or only the custom ones, without the skipped ones. -/
def shownFields (o : SerOptions Fmt) (names : List Str) : List (SerField Fmt) :=
  (if o.customOnly then o.custom
   else names.map fun n => (settingsOf o.custom n).getD (SerField.new n)).filter fun f => !f.skip

/-- What a call means, step by step; `none` for data that is not a record or a sequence of
records. -/
def eventsOf : SerOp Fmt → Option (List (SerEvent Fmt))
  | .cell op => some [.cell op]
  | .headers row col h f =>
    some [.declare ⟨h.structName, row, col, true, some f, h.fieldNames.map SerField.new, false⟩]
  | .headersWith row col h o =>
    some [.declare ⟨h.structName, row, col, o.hasHeaders, o.headerFmt, shownFields o h.fieldNames, o.table⟩]
  | .setHeaders row col o =>
    some [.declare ⟨o.structName, row, col, o.hasHeaders, o.headerFmt,
      o.custom.filter (fun f => !f.skip), o.table⟩]
  | .serialize v => (recordsOf v).map fun rs => rs.map .record

/-- The steps of a history. -/
def eventsOfAll : List (SerOp Fmt) → Option (List (SerEvent Fmt))
  | [] => some []
  | op :: ops => do
    let a ← eventsOf op
    let b ← eventsOfAll ops
    some (a ++ b)

/-- The headers in force for a struct and the number of its records since; `past` has the last
step first. -/
def area (n : Str) : List (SerEvent Fmt) → Option (Decl Fmt × Nat)
  | [] => none
  | .declare d :: past => if d.struct = n then some (d, 0) else area n past
  | .record r :: past =>
    (area n past).map fun a => (a.1, a.2 + if r.struct = n then 1 else 0)
  | .cell _ :: past => area n past

/-- The position of the last column for a field name. -/
def columnOf : List (SerField Fmt) → Str → Option (Nat × SerField Fmt)
  | [], _ => none
  | f :: fs, key =>
    match columnOf fs key with
    | some p => some (p.1 + 1, p.2)
    | none => if f.name = key then some (0, f) else none

/-- The row of the record after `k` others. -/
def Decl.dataRow (d : Decl Fmt) (k : Nat) : Nat := d.row + (if d.headers then 1 else 0) + k

/-- The cell call for a value. -/
def leafOp (row col : Nat) (f : Option Fmt) : Leaf → List (Op Fmt)
  | .boolean b => [.boolean row col b f]
  | .number n => [.number row col n f]
  | .text s => [.string row col s f]
  | .empty => [.string row col [] f]
  | .bytes => []

/-- The header of the column at position `i`: the format of the column, and the text of the
header with its own format or the one of the header row. -/
def headerAt (d : Decl Fmt) (i : Nat) (f : SerField Fmt) : List (Op Fmt) :=
  (match f.columnFmt with
    | some x => [.columnFormat (d.col + i) x]
    | none => []) ++
  (if d.headers then [.string d.row (d.col + i) f.header (f.headerFmt.or d.headerFmt)] else [])

/-- The headers of the columns from position `i`. -/
def headersFrom (d : Decl Fmt) : Nat → List (SerField Fmt) → List (Op Fmt)
  | _, [] => []
  | i, f :: fs => headerAt d i f ++ headersFrom d (i + 1) fs

/-- The calls for a record: nothing for a struct without headers, and nothing for a field without
a column. -/
def recordOps (past : List (SerEvent Fmt)) (r : Rec) : List (Op Fmt) :=
  match area r.struct past with
  | none => []
  | some (d, k) =>
    r.fields.flatMap fun p =>
      match columnOf d.fields p.1 with
      | none => []
      | some (i, f) => leafOp (d.dataRow k) (d.col + i) f.valueFmt p.2

/-- The cell calls a history stands for; the last step comes first. -/
def cellOps : List (SerEvent Fmt) → List (Op Fmt)
  | [] => []
  | .cell op :: past => cellOps past ++ [op]
  | .declare d :: past => cellOps past ++ headersFrom d 0 d.fields
  | .record r :: past => cellOps past ++ recordOps past r

/-- The area of a struct with `k` records: from its first cell to its last record and last
column; `none` if that is no cell at all. -/
def areaDims (d : Decl Fmt) (k : Nat) : Option Dims :=
  if d.dataRow k = 0 then none
  else some ⟨d.row, d.col, d.dataRow k - 1, d.col + (d.fields.length - 1)⟩

end
end Verif.Spec
