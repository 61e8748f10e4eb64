import Verif.Model.Book
/-!
The `<dimension>` element and the row spans: /repo/src/worksheet.rs:17668-17697 and
18833-18877.
-/
namespace Verif
variable {Fmt : Type}

/-- `write_dimension`, /repo/src/worksheet.rs:17668-17697: the `ref` attribute. -/
def Sheet.dimensionRef (s : Sheet Fmt) : Str :=
  let d := s.dims
  if d.firstRow = 0 ∧ d.firstCol = 0 ∧ d.lastRow = 0 ∧ d.lastCol = COL_MAX - 1 then "A1".toList
  else if d.firstRow ≠ ROW_MAX ∨ d.firstCol ≠ COL_MAX ∨ d.lastRow ≠ 0 ∨ d.lastCol ≠ 0 then
    cellRange d.firstRow d.firstCol d.lastRow d.lastCol
  else "A1".toList

/-- The loop body over column keys, /repo/src/worksheet.rs:18841-18847 and 18853-18859; the
pair is `(span_min, span_max)`. -/
def spanCol (m : Nat × Nat) (col : Nat) : Nat × Nat :=
  if m.1 = COL_MAX then (col, col) else (min m.1 col, max m.2 col)

/-- The two inner loops for one row, /repo/src/worksheet.rs:18839-18861. -/
def Sheet.spanRow (s : Sheet Fmt) (m : Nat × Nat) (row : Nat) : Nat × Nat :=
  let m := match s.table.get row with
    | some columns => (columns.map Prod.fst).foldl spanCol m
    | none => m
  match s.notes.get row with
    | some columns => (columns.map Prod.fst).foldl spanCol m
    | none => m

/-- The outer loop state of `calculate_spans`: the running minimum and maximum and the map
from block number to (one-based) span. -/
structure SpanState where
  minMax : Nat × Nat
  spans : BMap (Nat × Nat)

/-- One iteration of the outer loop, /repo/src/worksheet.rs:18838-18874.  (The hash map of
strings is modelled by the pair of numbers that is formatted as `min:max`.) -/
def Sheet.spanStep (s : Sheet Fmt) (st : SpanState) (row : Nat) : SpanState :=
  let m := s.spanRow st.minMax row
  if (row + 1) % 16 = 0 ∨ row = s.dims.lastRow then
    if m.1 ≠ COL_MAX then
      ⟨(COL_MAX, m.2 + 1), st.spans.insert (row / 16) (m.1 + 1, m.2 + 1)⟩
    else ⟨m, st.spans⟩
  else ⟨m, st.spans⟩

/-- `calculate_spans`, /repo/src/worksheet.rs:18833-18877. -/
def Sheet.calculateSpans (s : Sheet Fmt) : BMap (Nat × Nat) :=
  ((List.range' s.dims.firstRow (s.dims.lastRow + 1 - s.dims.firstRow)).foldl s.spanStep
    ⟨(COL_MAX, 0), []⟩).spans

/-- The `spans` attribute of the `<row>` element of `row` (as the two numbers),
/repo/src/worksheet.rs:18437-18438 and 18890-18892. -/
def Sheet.rowSpan (s : Sheet Fmt) (row : Nat) : Option (Nat × Nat) :=
  s.calculateSpans.get (row / 16)

end Verif
