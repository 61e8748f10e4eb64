import Verif.Model.Chart
/-!
Ranges given as text, and the checks of ranges and charts: `ChartRange::new_from_string` and `validate`
(/repo/src/chart.rs:8366-8561), `Chart::validate` (2690-2744).
-/
namespace Verif

/-- `is_valid_range`, /repo/src/utility.rs:816-837. -/
def isValidRange (s : Str) : Bool :=
  match s.head?, s.getLast? with
  | some a, some b =>
    (decide ('A' ≤ a) && decide (a ≤ 'Z')) && isAsciiDigit b &&
      s.all fun c => (decide ('A' ≤ c) && decide (c ≤ 'Z')) || isAsciiDigit c || c == ':'
  | _, _ => false

/-- `parse::<u32>().unwrap_or_default()` of the part from the first digit on, then `saturating_sub(1)`,
/repo/src/chart.rs:8392-8396. -/
def parseRow (s : Str) : Nat :=
  let n := parseU64 s
  if n < 2 ^ 32 then n - 1 else 0

/-- A cell of the range, /repo/src/chart.rs:8387-8399: the row and the column; `none` is the panic of
`column_name_to_number`. -/
def parseCell (U : Unicode) (s : Str) : Option (Nat × Nat) :=
  let p := splitCellReference U s
  (columnNameToNumber p.1).map fun c => (parseRow p.2, c)

/-- The cells of a range, /repo/src/chart.rs:8381-8413. -/
def parseCells (U : Unicode) (s : Str) : Option Dims :=
  match s.dropWhile (· ≠ ':') with
  | [] => (parseCell U s).map fun a => ⟨a.1, a.2, a.1, a.2⟩
  | _ :: last =>
    match parseCell U (s.takeWhile (· ≠ ':')), parseCell U last with
    | some a, some b => some ⟨a.1, a.2, b.1, b.2⟩
    | _, _ => none

/-- The quotes of a quoted worksheet name, /repo/src/chart.rs:8423-8425; `none` is the slice panic on a single
apostrophe. -/
def stripQuotes (n : Str) : Option Str :=
  if n.head? = some '\'' ∧ n.getLast? = some '\'' then
    (if n.length = 1 then none else some n.tail.dropLast)
  else some n

/-- The clean up of the worksheet name, /repo/src/chart.rs:8418-8425. -/
def cleanName (n : Str) : Option Str := stripQuotes (if n.head? = some '=' then n.tail else n)

/-- `ChartRange::new_from_string`, /repo/src/chart.rs:8366-8436; `none` is a panic. A text that is not understood
gives a range without a worksheet. -/
def ChartRange.newFromString (U : Unicode) (s : Str) : Option ChartRange :=
  match s.dropWhile (· ≠ '!') with
  | [] => some {}
  | _ :: rest =>
    let range := rest.filter (· ≠ '$')
    if isValidRange range then
      match parseCells U range, cleanName (s.takeWhile (· ≠ '!')) with
      | some d, some n => some ⟨n, d⟩
      | _, _ => none
    else some {}

/-- The outcome of a check. -/
inductive Checked where
  | ok | refused | panic
deriving DecidableEq, Repr

/-- `ChartRange::validate`, /repo/src/chart.rs:8526-8561. `error_range` is computed first: it panics if the name
cannot be quoted, or for the largest row and column numbers of the types (`row + 1`, `col_num + 1`). -/
def ChartRange.validate (U : Unicode) (r : ChartRange) : Checked :=
  if (quoteSheetName U r.sheet).isNone || r.d.firstRow ≥ 2 ^ 32 - 1 || r.d.lastRow ≥ 2 ^ 32 - 1 ||
      r.d.firstCol ≥ 65535 || r.d.lastCol ≥ 65535 then .panic
  else if (validateSheetname r.sheet).isSome then .refused
  else if r.d.firstRow > r.d.lastRow then .refused
  else if r.d.firstCol > r.d.lastCol then .refused
  else if r.d.firstRow ≥ ROW_MAX || r.d.lastRow ≥ ROW_MAX then .refused
  else if r.d.firstCol ≥ COL_MAX || r.d.lastCol ≥ COL_MAX then .refused
  else .ok

/-- The trend lines that are checked, /repo/src/chart.rs:2723-2740. -/
inductive Trend where
  | polynomial (order : Nat)
  | movingAverage (period : Nat)
  | other
deriving DecidableEq, Repr

/-- The checks of a trend line, /repo/src/chart.rs:2723-2740. -/
def Trend.check : Trend → Checked
  | .polynomial n => if 2 ≤ n && n < 6 then .ok else .refused
  | .movingAverage n => if 2 ≤ n && n < 4 then .ok else .refused
  | .other => .ok

/-- A check after another one (the `?` operator). -/
def Checked.then : Checked → Checked → Checked
  | .ok, b => b
  | a, _ => a

/-- The checks of a series, /repo/src/chart.rs:2698-2740, with its trend line. -/
def seriesCheck (U : Unicode) (g : ChartGroup) (s : ChartSeries × Trend) : Checked :=
  if !s.1.values.range.hasData then .refused
  else if g = .scatter && !s.1.cats.range.hasData then .refused
  else (s.1.values.range.validate U).then
    ((if s.1.cats.range.hasData then s.1.cats.range.validate U else .ok).then s.2.check)

/-- The loop over the series. -/
def seriesChecks (U : Unicode) (g : ChartGroup) : List (ChartSeries × Trend) → Checked
  | [] => .ok
  | s :: ss => (seriesCheck U g s).then (seriesChecks U g ss)

/-- `Chart::validate`, /repo/src/chart.rs:2690-2744. -/
def chartCheck (U : Unicode) (g : ChartGroup) (series : List (ChartSeries × Trend)) : Checked :=
  if series.isEmpty then .refused else seriesChecks U g series

end Verif
