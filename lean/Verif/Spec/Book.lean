import Verif.Spec.Sheet
import Verif.Model.Book
/-!
Specification at workbook level: which calls concern a worksheet, the three worksheet kinds, and
the row/column formats a history asks for.
-/
namespace Verif
section
variable {Fmt : Type}

/-- The calls of a history made on worksheet `i`, in order. -/
def opsFor (i : Nat) (ops : List (Nat × Op Fmt)) : List (Op Fmt) :=
  (ops.filter fun p => p.1 == i).map Prod.snd

/-- A worksheet made with `add_worksheet()`. -/
def Cfg.isStandard (c : Cfg) : Prop :=
  c.constMem = false ∧ c.inlineStrings = false ∧ c.globalXfs = false ∧ c.globalSst = false

/-- A worksheet made with `add_worksheet_with_constant_memory()`,
/repo/src/workbook.rs:570-574. -/
def Cfg.isConstant (c : Cfg) : Prop :=
  c.constMem = true ∧ c.inlineStrings = true ∧ c.globalXfs = true ∧ c.globalSst = false

/-- A worksheet made with `add_worksheet_with_low_memory()`, /repo/src/workbook.rs:643-650. -/
def Cfg.isLow (c : Cfg) : Prop :=
  c.constMem = true ∧ c.inlineStrings = false ∧ c.globalXfs = true ∧ c.globalSst = true

/-- The configurations the API can produce. -/
def Cfg.isReachable (c : Cfg) : Prop := c.isStandard ∨ c.isConstant ∨ c.isLow

/-- The format the history asks for on row `r` (last `set_row_format` wins). -/
def specRowFmt (ops : List (Op Fmt)) (r : Nat) : Option Fmt :=
  ops.foldl (fun a op => match op with
    | .rowFormat r' f => if r' = r ∧ r < 1048576 then some f else a
    | _ => a) none

/-- The format the history asks for on column `c`. -/
def specColFmt (ops : List (Op Fmt)) (c : Nat) : Option Fmt :=
  ops.foldl (fun a op => match op with
    | .columnFormat c' f => if c' = c ∧ c < 16384 then some f else a
    | _ => a) none

/-- The history uses `set_row_format`. -/
def Op.isRowFormat : Op Fmt → Bool
  | .rowFormat .. => true
  | _ => false

/-- The history uses `set_column_format`. -/
def Op.isColumnFormat : Op Fmt → Bool
  | .columnFormat .. => true
  | _ => false

/-- Range formatting calls. -/
def Op.isRangeFormat : Op Fmt → Bool
  | .rangeFormat .. => true
  | _ => false

/-- A dynamic array formula (one using a dynamic function) written with
`write_formula_with_format`. -/
def Op.isDynamicWithFormat : Op Fmt → Bool
  | .formula _ _ fa f => fa.dynamic && f.isSome
  | _ => false

/-- A string as a reader of the file resolves it: shared strings through the `<si>` list. -/
def Cell.resolvesIn (si : List Str) : Cell → Prop
  | .string s _ (some i) => si[i]? = some s
  | .rich s _ _ (some i) => si[i]? = some s
  | _ => True

/-- Cells that refer to the shared string table. -/
def Cell.isShared : Cell → Bool
  | .string _ _ (some _) | .rich _ _ _ (some _) => true
  | _ => false

end
end Verif

namespace Verif
variable {Fmt : Type}

/-- The content of a written cell as a reader sees it, with `si` the list of `<si>` entries of
the shared string part; an id outside the list reads as the error value 0. -/
def Cell.contentVia (si : List Str) : Cell → Content
  | .string s _ o => match o with
    | some i => match si[i]? with | some t => .text t | none => .error 0
    | none => .text s
  | .rich s raw _ o => match o with
    | some i => match si[i]? with | some t => .rich t raw | none => .error 0
    | none => .rich s raw
  | c => c.content

/-- What a reader finds at `(r, c)`: the written cell, its string looked up in `si`. -/
def readVia (si : List Str) (rows : List (RowOut Fmt)) (r c : Nat) : Content :=
  match (cellsOf rows).find? (fun e => e.1 == r && e.2.1 == c) with
  | some e => e.2.2.1.contentVia si
  | none => .blank

/-- A workbook with worksheets `cfgs` after the calls `ops`, at the point of `save()` where all
tables are final. -/
def savedBook [DecidableEq Fmt] (cfgs : List Cfg) (merge : Fmt → Fmt → Fmt) (dflt : Fmt)
    (ops : List (Nat × Op Fmt)) (extra : List Fmt) : Book Fmt :=
  ((Book.new cfgs merge dflt).run ops).prepare extra

end Verif
