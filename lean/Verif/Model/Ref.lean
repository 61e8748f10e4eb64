import Verif.Model.Dec
/-!
A1-style references: /repo/src/utility.rs lines 65-272.
-/
namespace Verif

/-- `ROW_MAX`, /repo/src/worksheet.rs:1410. -/
def ROW_MAX : Nat := 1048576
/-- `COL_MAX`, /repo/src/worksheet.rs:1411. -/
def COL_MAX : Nat := 16384

/-- The `while` loop of `column_number_to_name`, /repo/src/utility.rs:70-86.
`n` is the loop variable `col_num`, `acc` is `col_name`.
`u16` is modelled by `Nat` (the loop only decreases `n`). -/
def colLoop (n : Nat) (acc : Str) : Str :=
  if _h : n = 0 then acc
  else
    let r := n % 26
    let r := if r = 0 then 26 else r
    colLoop ((n - 1) / 26) (Char.ofNat (64 + r) :: acc)
termination_by n
decreasing_by omega

/-- `column_number_to_name`, /repo/src/utility.rs:65-89.
(The `u16` sum `col_num + 1` overflows only for 65535, outside every legal column.) -/
def columnNumberToName (col : Nat) : Str := colLoop (col + 1) []

/-- One step of the loop of `column_name_to_number`, /repo/src/utility.rs:116-118, with
overflow-checked `u16` arithmetic: `none` is the arithmetic panic.
`char as u16` truncates to 16 bits. -/
def colNumStep (n : Nat) (c : Char) : Option Nat :=
  let x := c.toNat % 65536
  if n * 26 ≥ 65536 then none
  else if x < 65 then none
  else if n * 26 + (x - 65 + 1) ≥ 65536 then none
  else some (n * 26 + (x - 65 + 1))

/-- `column_name_to_number`, /repo/src/utility.rs:110-121; `none` is a panic
(debug build; a release build would wrap). -/
def columnNameToNumber (s : Str) : Option Nat :=
  if s = [] then some 0
  else match s.foldlM colNumStep 0 with
    | none => none
    | some n => if n = 0 then none else some (n - 1)

/-- `row_col_to_cell`, /repo/src/utility.rs:144-146. -/
def rowColToCell (row col : Nat) : Str := columnNumberToName col ++ showNat (row + 1)

/-- `row_col_to_cell_absolute`, /repo/src/utility.rs:170-172. -/
def rowColToCellAbs (row col : Nat) : Str :=
  '$' :: columnNumberToName col ++ '$' :: showNat (row + 1)

/-- `cell_range`, /repo/src/utility.rs:208-222. -/
def cellRange (r1 c1 r2 c2 : Nat) : Str :=
  let range1 := rowColToCell r1 c1
  let range2 := rowColToCell r2 c2
  if range1 = range2 then range1 else range1 ++ ':' :: range2

/-- `cell_range_absolute`, /repo/src/utility.rs:258-272. -/
def cellRangeAbs (r1 c1 r2 c2 : Nat) : Str :=
  let range1 := rowColToCellAbs r1 c1
  let range2 := rowColToCellAbs r2 c2
  if range1 = range2 then range1 else range1 ++ ':' :: range2

end Verif
