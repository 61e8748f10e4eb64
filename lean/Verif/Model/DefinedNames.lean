import Verif.Model.Names
/-!
Defined names: `define_name` (/repo/src/workbook.rs:1532-1584), print areas, repeat rows and columns
and autofilters (/repo/src/worksheet.rs:14041-14231, 8414-8440, 20577-20719), and their collection at
save (/repo/src/workbook.rs:2736-2861, 3021-3047).
-/
namespace Verif

/-- `DefinedNameType`, /repo/src/worksheet.rs:20807-20813. -/
inductive DNType where
  | autofilter | global | «local» | printArea | printTitles
deriving DecidableEq, Repr

/-- `DefinedName`, /repo/src/worksheet.rs:20577-20589. -/
structure DefName where
  inUse : Bool := false
  name : Str := []
  sortName : Str := []
  range : Str := []
  quoted : Str := []
  index : Nat := 0
  kind : DNType := .global
  firstRow : Nat := ROW_MAX
  firstCol : Nat := COL_MAX
  lastRow : Nat := 0
  lastCol : Nat := 0
deriving DecidableEq, Repr

/-- `set_sort_name`, /repo/src/worksheet.rs:20643-20653. -/
def DefName.setSortName (U : Unicode) (d : DefName) : DefName :=
  let n := match d.kind with
    | .printArea => "Print_Area{}".toList
    | .autofilter => "_FilterDatabase{}".toList
    | .printTitles => "Print_Titles".toList
    | _ => d.name
  { d with sortName := U.lower (n.filter (· ≠ '\'')) }

/-- `set_range`, /repo/src/worksheet.rs:20655-20719. -/
def DefName.setRange (d : DefName) : DefName :=
  match d.kind with
  | .autofilter | .printArea =>
    let range :=
      if d.firstCol = 0 ∧ d.lastCol = COL_MAX - 1 then
        '$' :: showNat (d.firstRow + 1) ++ ":$".toList ++ showNat (d.lastRow + 1)
      else if d.firstRow = 0 ∧ d.lastRow = ROW_MAX - 1 then
        '$' :: columnNumberToName d.firstCol ++ ":$".toList ++ columnNumberToName d.lastCol
      else cellRangeAbs d.firstRow d.firstCol d.lastRow d.lastCol
    { d with range := d.quoted ++ '!' :: range }
  | .printTitles =>
    let range :=
      if d.firstCol ≠ COL_MAX ∨ d.lastCol ≠ 0 then
        d.quoted ++ "!$".toList ++ columnNumberToName d.firstCol ++ ":$".toList ++
          columnNumberToName d.lastCol
      else []
    let range :=
      if d.firstRow ≠ ROW_MAX ∨ d.lastRow ≠ 0 then
        let rows := d.quoted ++ "!$".toList ++ showNat (d.firstRow + 1) ++ ":$".toList ++
          showNat (d.lastRow + 1)
        if range = [] then rows else range ++ ',' :: rows
      else range
    { d with range := range }
  | _ => d

/-- `initialize`, /repo/src/worksheet.rs:20608-20612. -/
def DefName.initialize (U : Unicode) (d : DefName) (quoted : Str) : DefName :=
  ({ d with quoted := quoted } : DefName).setRange.setSortName U

/-- `name`, /repo/src/worksheet.rs:20632-20639. -/
def DefName.writtenName (d : DefName) : Str :=
  match d.kind with
  | .printArea => "_xlnm.Print_Area".toList
  | .autofilter => "_xlnm._FilterDatabase".toList
  | .printTitles => "_xlnm.Print_Titles".toList
  | _ => d.name

/-- What a call that may fail or panic gives. -/
inductive Res3 (α : Type) where
  | ok (a : α)
  | err
  | panic
deriving DecidableEq, Repr

/-- `formula_to_string`, /repo/src/utility.rs:1115-1123. -/
def formulaToString : Str → Str
  | '=' :: s => s
  | s => s

/-- `define_name`, /repo/src/workbook.rs:1532-1584: the stored name, `ParameterError`, or the panic of
`chars().next().unwrap()` on an empty name (1555). -/
def defineName (U : Unicode) (name formula : Str) : Res3 DefName :=
  let d : DefName :=
    if name.any (· == '!') then
      { quoted := name.takeWhile (· ≠ '!'), name := (name.dropWhile (· ≠ '!')).tail, kind := .local }
    else { name := name, kind := .global }
  match d.name with
  | [] => .panic
  | c :: _ =>
    if !U.alpha c && c ≠ '_' && c ≠ '\\' then .err
    else if d.name.any (" ,/*[]:\"'".toList.contains ·) then .err
    else .ok (({ d with range := formulaToString formula } : DefName).setSortName U)

/-- The parts of a worksheet that give defined names. -/
structure SheetNames where
  name : Str
  autofilter : DefName := {}
  printArea : DefName := {}
  titles : DefName := {}
deriving DecidableEq, Repr

/-- `set_print_area`, /repo/src/worksheet.rs:14041-14076 (`none` = error). -/
def SheetNames.setPrintArea (s : SheetNames) (r1 c1 r2 c2 : Nat) : Option SheetNames :=
  if r1 ≥ ROW_MAX ∨ c1 ≥ COL_MAX ∨ r2 ≥ ROW_MAX ∨ c2 ≥ COL_MAX then none
  else if r1 > r2 ∨ c1 > c2 then none
  else if r1 = 0 ∧ c1 = 0 ∧ r2 = ROW_MAX - 1 ∧ c2 = COL_MAX - 1 then some s
  else
    let d : DefName := { s.printArea with inUse := true, kind := .printArea }
    let d : DefName := { d with firstRow := r1, firstCol := c1, lastRow := r2, lastCol := c2 }
    some { s with printArea := d }

/-- `set_repeat_rows`, /repo/src/worksheet.rs:14130-14153. -/
def SheetNames.setRepeatRows (s : SheetNames) (r1 r2 : Nat) : Option SheetNames :=
  if r1 ≥ ROW_MAX ∨ r2 ≥ ROW_MAX then none
  else if r1 > r2 then none
  else
    let d : DefName := { s.titles with inUse := true, kind := .printTitles }
    let d : DefName := { d with firstRow := r1, lastRow := r2 }
    some { s with titles := d }

/-- `set_repeat_columns`, /repo/src/worksheet.rs:14208-14231. -/
def SheetNames.setRepeatColumns (s : SheetNames) (c1 c2 : Nat) : Option SheetNames :=
  if c1 ≥ COL_MAX ∨ c2 ≥ COL_MAX then none
  else if c1 > c2 then none
  else
    let d : DefName := { s.titles with inUse := true, kind := .printTitles }
    let d : DefName := { d with firstCol := c1, lastCol := c2 }
    some { s with titles := d }

/-- The defined name stored by `autofilter`, /repo/src/worksheet.rs:8421-8439. -/
def SheetNames.setAutofilter (s : SheetNames) (r1 c1 r2 c2 : Nat) : Option SheetNames :=
  if r1 ≥ ROW_MAX ∨ c1 ≥ COL_MAX ∨ r2 ≥ ROW_MAX ∨ c2 ≥ COL_MAX then none
  else if r1 > r2 ∨ c1 > c2 then none
  else
    let d : DefName := { s.autofilter with inUse := true, kind := .autofilter }
    let d : DefName := { d with firstRow := r1, firstCol := c1, lastRow := r2, lastCol := c2 }
    some { s with autofilter := d }

/-- One of these calls on a worksheet; a refused call changes nothing here. -/
inductive SheetNameOp where
  | autofilter (r1 c1 r2 c2 : Nat)
  | printArea (r1 c1 r2 c2 : Nat)
  | rows (r1 r2 : Nat)
  | cols (c1 c2 : Nat)
deriving DecidableEq, Repr

/-- Execute a call: /repo/src/worksheet.rs:14041-14231, 8414-8440. -/
def SheetNames.exec (s : SheetNames) : SheetNameOp → SheetNames
  | .autofilter r1 c1 r2 c2 => (s.setAutofilter r1 c1 r2 c2).getD s
  | .printArea r1 c1 r2 c2 => (s.setPrintArea r1 c1 r2 c2).getD s
  | .rows r1 r2 => (s.setRepeatRows r1 r2).getD s
  | .cols c1 c2 => (s.setRepeatColumns c1 c2).getD s

/-- The names of one worksheet, /repo/src/workbook.rs:2801-2821; `none` = panic while quoting. -/
def SheetNames.collect (U : Unicode) (s : SheetNames) : Option (List DefName) :=
  (quoteSheetName U s.name).map fun q =>
    ([s.autofilter, s.printArea, s.titles].filter (·.inUse)).map (·.initialize U q)

/-- The loop over the worksheets, /repo/src/workbook.rs:2747-2829. -/
def collectAll (U : Unicode) : List SheetNames → Option (List DefName)
  | [] => some []
  | s :: ss => do
    let a ← s.collect U
    let b ← collectAll U ss
    return a ++ b

/-- The `sheet_names` map, /repo/src/workbook.rs:2750: the last sheet with that name wins. -/
def lookupSheet : List Str → Nat → Str → Option Nat
  | [], _, _ => none
  | n :: ns, i, s =>
    match lookupSheet ns (i + 1) s with
    | some j => some j
    | none => if n = s then some i else none

/-- The loop that sets the sheet index, /repo/src/workbook.rs:2833-2848. -/
def resolveNames (sheets : List Str) : List DefName → Res3 (List DefName)
  | [] => .ok []
  | d :: ds =>
    match unquoteSheetname d.quoted with
    | none => .panic
    | some s =>
      if s = [] then
        match resolveNames sheets ds with
        | .ok r => .ok (d :: r)
        | e => e
      else match lookupSheet sheets 0 s with
        | none => .err
        | some i =>
          match resolveNames sheets ds with
          | .ok r => .ok ({ d with index := i } :: r)
          | e => e

/-- Comparison of strings (`String::cmp` compares bytes, which for UTF-8 is the order of the code
points). -/
def strLe : Str → Str → Bool
  | [], _ => true
  | _ :: _, [] => false
  | a :: as, b :: bs => decide (a.toNat < b.toNat) || (a == b && strLe as bs)

/-- The order of the sort key `(sort_name, range)`, /repo/src/workbook.rs:2851. -/
def DefName.keyLe (a b : DefName) : Bool :=
  if a.sortName = b.sortName then strLe a.range b.range else strLe a.sortName b.sortName

/-- The defined names at save, /repo/src/workbook.rs:2736-2861. -/
def saveNames (U : Unicode) (user : List DefName) (sheets : List SheetNames) : Res3 (List DefName) :=
  match collectAll U sheets with
  | none => .panic
  | some c =>
    match resolveNames (sheets.map (·.name)) (user ++ c) with
    | .ok l => .ok (l.mergeSort DefName.keyLe)
    | .err => .err
    | .panic => .panic

/-- One `<definedName>` element: name, `localSheetId`, `hidden`, and the text. -/
structure WrittenName where
  name : Str
  localSheetId : Option Nat
  hidden : Bool
  text : Str
deriving DecidableEq, Repr

/-- `write_defined_names`, /repo/src/workbook.rs:3024-3044. -/
def DefName.written (d : DefName) : WrittenName where
  name := d.writtenName
  localSheetId := if d.kind = .global then none else some d.index
  hidden := d.kind = .autofilter
  text := d.range

end Verif
