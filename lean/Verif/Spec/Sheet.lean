import Verif.Model.Sheet
/-!
Specification of what the cell-writing API means, cell by cell: what a reader of the file
should find at `(r, c)` after a history of calls.  Independent of how the sheet stores data:
no tables, no indices, no loops.
-/
namespace Verif

/-- What a cell holds, as seen by a reader of the file.  A cell that is absent from the file
is `blank`. -/
inductive Content where
  | blank
  | number (n : Str)
  | dateTime (n : Str)
  | text (s : Str)
  | rich (markup raw : Str)
  | formula (f result : Str)
  | array (f result : Str) (isDynamic : Bool) (range : Str)
  | boolean (b : Bool)
  | error (value : Nat)
deriving Repr, DecidableEq

/-- The content of a stored or written cell. -/
def Cell.content : Cell → Content
  | .number n _ => .number n
  | .dateTime n _ => .dateTime n
  | .string s _ _ => .text s
  | .rich s r _ _ => .rich s r
  | .inlineString s _ => .text s
  | .formula f r _ => .formula f r
  | .arrayFormula f r _ d g => .array f r d g
  | .blank _ => .blank
  | .boolean b _ => .boolean b
  | .error v _ => .error v

/-- What one call does to one cell. -/
inductive Upd (Fmt : Type) where
  | keep
  /-- the cell now holds `c`; `f` is the explicit format given with it, if any -/
  | write (c : Content) (f : Option Fmt)
  /-- the format is replaced, the content kept -/
  | format (f : Fmt)
  /-- the format is removed, the content kept -/
  | unformat
  /-- content and format are removed -/
  | erase

/-- Excel's grid. -/
def inGrid (r c : Nat) : Bool := r < 1048576 && c < 16384

section
variable {Fmt : Type}

/-- A cell is written with a string: nothing happens for an empty string without format, an
empty string with a format is a blank cell, strings over 32767 characters are refused. -/
def updString (r c : Nat) (content : Content) (s : Str) (f : Option Fmt) : Upd Fmt :=
  if s = [] then
    match f with
    | some f => if inGrid r c then .write .blank (some f) else .keep
    | none => .keep
  else if inGrid r c && s.length ≤ 32767 then .write content f
  else .keep

/-- A number write; NaN and infinities become (configurable) strings. -/
def updNumber (cfg : Cfg) (r c : Nat) (n : F64) (f : Option Fmt) (isDate : Bool) : Upd Fmt :=
  match n with
  | .finite t =>
    if inGrid r c then .write (if isDate then .dateTime t else .number t) f else .keep
  | .nan => if inGrid r c then updString r c (.text cfg.nanText) cfg.nanText f else .keep
  | .posInf => if inGrid r c then updString r c (.text cfg.infText) cfg.infText f else .keep
  | .negInf => if inGrid r c then updString r c (.text cfg.negInfText) cfg.negInfText f else .keep

/-- The result text stored with a formula. -/
def resultOf (cfg : Cfg) (fa : FormulaArg) : Str :=
  if fa.result = [] then cfg.defaultResult else fa.result

/-- The effect of a call on cell `(r, c)`. -/
def Op.effectAt (cfg : Cfg) (r c : Nat) : Op Fmt → Upd Fmt
  | .number r' c' n f => if r = r' ∧ c = c' then updNumber cfg r c n f false else .keep
  | .dateTime r' c' n f => if r = r' ∧ c = c' then updNumber cfg r c n f true else .keep
  | .string r' c' s f => if r = r' ∧ c = c' then updString r c (.text s) s f else .keep
  | .rich r' c' s raw f => if r = r' ∧ c = c' then updString r c (.rich s raw) s f else .keep
  | .formula r' c' fa f =>
    if r = r' ∧ c = c' ∧ inGrid r c then
      if fa.dynamic then .write (.array fa.text (resultOf cfg fa) true (cellRange r c r c)) f
      else .write (.formula fa.text (resultOf cfg fa)) f
    else .keep
  | .arrayFormula r1 c1 r2 c2 fa f d =>
    if r1 ≤ r2 ∧ c1 ≤ c2 ∧ inGrid r2 c2 ∧ r1 ≤ r ∧ r ≤ r2 ∧ c1 ≤ c ∧ c ≤ c2 then
      if r = r1 ∧ c = c1 then
        .write (.array fa.text (resultOf cfg fa) (d || fa.dynamic) (cellRange r1 c1 r2 c2)) f
      else .write (.number "0".toList) f
    else .keep
  | .blank r' c' f => if r = r' ∧ c = c' ∧ inGrid r c then .write .blank (some f) else .keep
  | .boolean r' c' b f => if r = r' ∧ c = c' ∧ inGrid r c then .write (.boolean b) f else .keep
  | .cellFormat r' c' f => if r = r' ∧ c = c' ∧ inGrid r c then .format f else .keep
  | .rangeFormat r1 c1 r2 c2 f =>
    if r1 ≤ r2 ∧ c1 ≤ c2 ∧ inGrid r2 c2 ∧ r1 ≤ r ∧ r ≤ r2 ∧ c1 ≤ c ∧ c ≤ c2 then .format f
    else .keep
  | .clearCell r' c' => if r = r' ∧ c = c' then .erase else .keep
  | .clearFormat r' c' => if r = r' ∧ c = c' then .unformat else .keep
  | .rowFormat .. | .columnFormat .. | .rowHeight .. | .rowHidden .. | .note .. => .keep

/-- New content of a cell. -/
def Upd.content (u : Upd Fmt) (old : Content) : Content :=
  match u with
  | .keep | .format _ | .unformat => old
  | .write c _ => c
  | .erase => .blank

/-- New explicit format of a cell; `none` means the format is left to the row/column
defaults. -/
def Upd.fmt (u : Upd Fmt) (old : Option Fmt) : Option Fmt :=
  match u with
  | .keep => old
  | .format f => some f
  | .write _ f => f
  | .unformat | .erase => none

/-- What the history of calls `ops` leaves in cell `(r, c)` of a new sheet. -/
def specContent (cfg : Cfg) (ops : List (Op Fmt)) (r c : Nat) : Content :=
  ops.foldl (fun a op => (op.effectAt cfg r c).content a) .blank

/-- The explicit format the history `ops` leaves on cell `(r, c)`. -/
def specFmt (cfg : Cfg) (ops : List (Op Fmt)) (r c : Nat) : Option Fmt :=
  ops.foldl (fun a op => (op.effectAt cfg r c).fmt a) none

/-- All written cells in file order: row, column, cell, style index. -/
def cellsOf (rows : List (RowOut Fmt)) : List (Nat × Nat × Cell × Nat) :=
  rows.flatMap fun ro => (ro.cells.getD []).map fun p => (ro.row, p.1, p.2.1, p.2.2)

/-- What a reader finds at `(r, c)` in the written rows. -/
def readContent (rows : List (RowOut Fmt)) (r c : Nat) : Content :=
  match (cellsOf rows).find? (fun e => e.1 == r && e.2.1 == c) with
  | some e => e.2.2.1.content
  | none => .blank

/-- The style index a reader finds at `(r, c)`, if the cell is there. -/
def readStyle (rows : List (RowOut Fmt)) (r c : Nat) : Option Nat :=
  ((cellsOf rows).find? (fun e => e.1 == r && e.2.1 == c)).map fun e => e.2.2.2

/-- Rows are in strictly increasing order, and so are the columns of each row: every row and
every cell is written at most once, in row-major order. -/
def rowMajor (rows : List (RowOut Fmt)) : Prop :=
  rows.Pairwise (fun a b => a.row < b.row) ∧
  ∀ ro ∈ rows, ((ro.cells.getD []).map Prod.fst).Pairwise (· < ·)

end
end Verif
