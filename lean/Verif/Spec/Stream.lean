import Verif.Spec.Book
/-!
Specification for constant memory worksheets: which calls come in time, and what a reader of the file finds in the rows.
-/
namespace Verif
variable {Fmt : Type}

/-- The update writes a cell. -/
def Upd.isWrite : Upd Fmt → Bool
  | .write .. => true
  | _ => false

/-- The top row in which a call puts new cells, if it is a call that writes cells and is accepted. -/
def Op.lands (cfg : Cfg) (op : Op Fmt) : Option Nat :=
  let top : Option (Nat × Nat) := match op with
    | .number r c .. | .dateTime r c .. | .string r c .. | .rich r c .. | .formula r c .. | .arrayFormula r c ..
    | .blank r c .. | .boolean r c .. => some (r, c)
    | _ => none
  match top with
  | some (r, c) => if (op.effectAt cfg r c).isWrite then some r else none
  | none => none

/-- The lowest row in which the calls have put cells (the row that is still in memory). -/
def cursor (cfg : Cfg) (ops : List (Op Fmt)) : Nat :=
  ops.foldl (fun k op => match op.lands cfg with | some r => max k r | none => k) 0

/-- The call is only about rows above row `k`. -/
def Op.isLate (k : Nat) : Op Fmt → Bool
  | .number r .. | .dateTime r .. | .string r .. | .rich r .. | .formula r .. | .blank r .. | .boolean r ..
  | .cellFormat r .. | .clearCell r .. | .clearFormat r .. | .rowFormat r .. | .rowHeight r .. | .rowHidden r .. =>
    r < k
  | .arrayFormula r1 _ r2 .. => r1 < k && r2 < k
  | _ => false

/-- The calls that constant memory mode can serve when row `k` is in memory: array formulas that do not start above
it, changes of cells that are not below it, column formats only before a row is finished, no range formats. -/
def Op.streams (k : Nat) : Op Fmt → Bool
  | .arrayFormula r1 _ r2 .. => k ≤ r1 || r2 < k
  | .cellFormat r .. | .clearCell r .. | .clearFormat r .. => r ≤ k
  | .columnFormat .. => k = 0
  | .rangeFormat .. => false
  | _ => true

/-- The calls with those dropped that come late. -/
def inTimeFrom (cfg : Cfg) (k : Nat) : List (Op Fmt) → List (Op Fmt)
  | [] => []
  | op :: ops =>
    (if op.isLate k then [] else [op]) ++
      inTimeFrom cfg (match op.lands cfg with | some r => max k r | none => k) ops

/-- The calls of a history that come in time. -/
def inTime (cfg : Cfg) (ops : List (Op Fmt)) : List (Op Fmt) := inTimeFrom cfg 0 ops

/-- Constant memory mode can serve all the calls, from row `k` on. -/
def streamsFrom (cfg : Cfg) (k : Nat) : List (Op Fmt) → Bool
  | [] => true
  | op :: ops => op.streams k && streamsFrom cfg (match op.lands cfg with | some r => max k r | none => k) ops

/-- The top row of a call that writes cells. -/
def Op.writeRow : Op Fmt → Option Nat
  | .number r .. | .dateTime r .. | .string r .. | .rich r .. | .formula r .. | .arrayFormula r .. | .blank r ..
  | .boolean r .. => some r
  | _ => none

/-- The row whose settings a call changes. -/
def Op.settingsRow : Op Fmt → Option Nat
  | .rowFormat r .. | .rowHeight r .. | .rowHidden r .. => some r
  | _ => none

/-- A row as a reader of the file finds it: height and hidden flag and format of the row if it has settings, and the
cells with content and format. -/
structure RowView (Fmt : Type) where
  row : Nat
  settings : Option (Str × Bool × Option Fmt)
  cells : Option (List (Nat × Content × Option Fmt))
deriving DecidableEq

/-- The row as found with the style list `xfs` and the shared strings `si`; the `s` attribute of a row
(/repo/src/worksheet.rs:18898-18905, 18961-18967) is written if its format is not the default format. -/
def Sheet.readRow (xfs : List Fmt) (si : List Str) (s : Sheet Fmt) (ro : RowOut Fmt) : RowView Fmt :=
  ⟨ro.row,
   ro.opt.map fun o => (o.height, o.hidden, if o.xf = 0 then none else xfs[s.getGlobalXfIndex o.xf]?),
   ro.cells.map fun l => l.map fun p => (p.1, p.2.1.contentVia si, xfs[p.2.2]?)⟩

/-- The rows of a worksheet that say something: rows without settings and without cells are left out. -/
def Sheet.readRows [DecidableEq Fmt] (xfs : List Fmt) (si : List Str) (s : Sheet Fmt) : List (RowView Fmt) :=
  (s.rows.filter fun ro => ro.opt.isSome || ro.cells.isSome).map (s.readRow xfs si)

end Verif
