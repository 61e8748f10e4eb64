import Verif.Model.Sheet
import Verif.Model.Xml
/-!
Merged ranges: `merge_range`, /repo/src/worksheet.rs:4965-5035, and the `mergeCells` element,
17881-17899.  The cells are written through the sheet model of `Model/Sheet.lean`.
-/
namespace Verif

/-- A `HashMap<(RowNum, ColNum), usize>` from cells to positions in a list of ranges, as used by
`merged_cells` and `table_cells`, /repo/src/worksheet.rs:1552-1554: a list of pairs, newest first. -/
abbrev CellIndex := List ((Nat × Nat) × Nat)

/-- The cells visited by `for row in first_row..=last_row { for col in first_col..=last_col`,
/repo/src/worksheet.rs:5016-5017 and 8858-8859. -/
def Dims.cells (d : Dims) : List (Nat × Nat) :=
  (List.range' d.firstRow (d.lastRow + 1 - d.firstRow)).flatMap fun r =>
    (List.range' d.firstCol (d.lastCol + 1 - d.firstCol)).map fun c => (r, c)

/-- How the overlap loop ends. -/
inductive Claim where
  | free
  | taken (previous : Dims)
  | panic
deriving DecidableEq, Repr

/-- The overlap loop of `merge_range`, /repo/src/worksheet.rs:5015-5029, and of `add_table`,
8857-8871: cells are entered one by one under the number the new range will get, until one is found
that is there already; `panic` is the `unwrap` in line 5020 (8862). -/
def claimCells (ranges : List Dims) : List (Nat × Nat) → CellIndex → Claim × CellIndex
  | [], m => (.free, m)
  | p :: ps, m =>
    match m.lookup p with
    | some i =>
      match ranges[i]? with
      | some d => (.taken d, m)
      | none => (.panic, m)
    | none => claimCells ranges ps ((p, ranges.length) :: m)

/-- A worksheet with its merged ranges, /repo/src/worksheet.rs:1551-1552. -/
structure MSheet (Fmt : Type) where
  sheet : Sheet Fmt
  ranges : List Dims := []
  index : CellIndex := []

/-- The errors of `merge_range`. -/
inductive MergeErr where
  | cell (e : Err)
  | single
  | overlaps (new previous : Dims)
deriving DecidableEq, Repr

/-- The outcome of `merge_range`: accepted, refused, or a panic of the program. -/
inductive MRes (Fmt : Type) where
  | ok (s : MSheet Fmt)
  | err (e : MergeErr) (s : MSheet Fmt)
  | panic

section
variable {Fmt : Type} [DecidableEq Fmt]

/-- `set_writing_ahead`, /repo/src/worksheet.rs:14701-14705. -/
def Sheet.setWritingAhead (s : Sheet Fmt) (b : Bool) : Sheet Fmt :=
  if s.cfg.constMem then { s with writingAhead := b } else s

/-- The cell writes of `merge_range`, /repo/src/worksheet.rs:4991-5007. -/
def Sheet.writeMerged (s : Sheet Fmt) (d : Dims) (str : Str) (f : Fmt) : Res Fmt :=
  Res.andThen (s.storeString d.firstRow d.firstCol str (some f)) fun s =>
  Res.andThen (forEach (List.range' (d.firstCol + 1) (d.lastCol - d.firstCol))
    (fun c s => s.storeBlank d.firstRow c f) s) fun s =>
  Res.andThen (forEach (List.range' (d.firstRow + 1) (d.lastRow - d.firstRow))
    (fun r s => forEach (List.range' d.firstCol (d.lastCol + 1 - d.firstCol))
      (fun c s => s.storeBlank r c f) s) (s.setWritingAhead true)) fun s =>
  (none, s.setWritingAhead false)

/-- `merge_range`, /repo/src/worksheet.rs:4965-5035. -/
def MSheet.mergeRange (s : MSheet Fmt) (d : Dims) (str : Str) (f : Fmt) : MRes Fmt :=
  match s.sheet.checkDimensions d.firstRow d.firstCol with
  | (false, t) => .err (.cell .rowColumnLimit) { s with sheet := t }
  | (true, t) =>
    match t.checkDimensions d.lastRow d.lastCol with
    | (false, t) => .err (.cell .rowColumnLimit) { s with sheet := t }
    | (true, t) =>
      if d.firstRow > d.lastRow || d.firstCol > d.lastCol then
        .err (.cell .rowColumnOrder) { s with sheet := t }
      else if d.firstRow = d.lastRow && d.firstCol = d.lastCol then .err .single { s with sheet := t }
      else
        match t.writeMerged d str f with
        | (some e, t) => .err (.cell e) { s with sheet := t }
        | (none, t) =>
          match claimCells s.ranges d.cells s.index with
          | (.free, m) => .ok { sheet := t, ranges := s.ranges ++ [d], index := m }
          | (.taken p, m) => .err (.overlaps d p) { s with sheet := t, index := m }
          | (.panic, _) => .panic

/-- A call on a worksheet with merged ranges: any of the cell calls, or `merge_range`. -/
inductive MOp (Fmt : Type) where
  | cell (op : Op Fmt)
  | merge (d : Dims) (str : Str) (f : Fmt)

/-- One call; `none` is a panic. -/
def MSheet.exec (s : MSheet Fmt) : MOp Fmt → Option (MSheet Fmt)
  | .cell op => some { s with sheet := (s.sheet.exec op).2 }
  | .merge d str f =>
    match s.mergeRange d str f with
    | .ok s => some s
    | .err _ s => some s
    | .panic => none

/-- A history of calls; `none` if one of them panics. -/
def MSheet.run (s : MSheet Fmt) (ops : List (MOp Fmt)) : Option (MSheet Fmt) := ops.foldlM MSheet.exec s

/-- `write_merge_cells` and `write_merge_cell`, /repo/src/worksheet.rs:17881-17899; written only if there
are merged ranges (17398). -/
def mergeCellsTree (ranges : List Dims) : Tree :=
  .node "mergeCells".toList [("count".toList, showNat ranges.length)]
    (ranges.map fun d => .empty "mergeCell".toList
      [("ref".toList, cellRange d.firstRow d.firstCol d.lastRow d.lastCol)])

end
end Verif
