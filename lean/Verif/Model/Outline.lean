/-!
Row and column grouping (outlines).  The row and column versions of the code are the same up to
the limit (`ROW_MAX` / `COL_MAX`); one model covers both.  `changed_rows` (a `HashMap`) and
`changed_cols` are modelled as partial functions.  Heights, widths and formats are left out (they
are in the sheet model); operations that only touch those are `touch`.
-/
namespace Verif

/-- The outline related fields of `RowOptions` (worksheet.rs:20471-20478) and `ColOptions`. -/
structure LineOpt where
  level : Nat
  hidden : Bool
  collapsed : Bool
deriving DecidableEq, Repr

/-- `changed_rows` and `max_outline_row_level` (worksheet.rs:1561, 1629). -/
structure Outline where
  opts : Nat → Option LineOpt
  maxLevel : Nat

/-- A new worksheet (worksheet.rs:1764, 1849). -/
def Outline.new : Outline := ⟨fun _ => none, 0⟩

/-- `HashMap::insert`. -/
def Outline.put (s : Outline) (i : Nat) (o : LineOpt) : Outline :=
  { s with opts := fun j => if j = i then some o else s.opts j }

inductive GroupErr where
  | limit | order | maxLevel
deriving DecidableEq, Repr

/-- worksheet.rs:17150-17188 `set_grouped_row`, 17248-17287 `set_grouped_column`; `none` is
`MaxGroupLevelExceeded` (nothing has been changed then). -/
def Outline.group1 (s : Outline) (i : Nat) (collapsed : Bool) : Option Outline :=
  match s.opts i with
  | some o =>
    let next := o.level + 1
    if next > 7 then none
    else
      let s := { s with maxLevel := max next s.maxLevel }
      some (s.put i { o with level := next, hidden := if collapsed then true else o.hidden })
  | none => some (s.put i ⟨1, collapsed, false⟩)

/-- worksheet.rs:17141-17143, 17239-17241: the loop over the lines of the group, which stops at
the first error. -/
def Outline.groupLoop (collapsed : Bool) : List Nat → Outline → Outline × Option GroupErr
  | [], s => (s, none)
  | i :: is, s =>
    match s.group1 i collapsed with
    | none => (s, some .maxLevel)
    | some s' => groupLoop collapsed is s'

/-- The numbers `a, a+1, ..., b` (Rust `a..=b`). -/
def inclRange (a b : Nat) : List Nat := (List.range (b + 1 - a)).map (a + ·)

/-- worksheet.rs:17121-17146 `set_grouped_rows`, 17219-17244 `set_grouped_columns`. -/
def Outline.groupLines (limit : Nat) (s : Outline) (a b : Nat) (collapsed : Bool) :
    Outline × Option GroupErr :=
  if a ≥ limit || b ≥ limit then (s, some .limit)
  else if a > b then (s, some .order)
  else s.groupLoop collapsed (inclRange a b)

/-- worksheet.rs:17191-17215 `set_collapsed_row`, 17290-17315 `set_collapsed_column`. -/
def Outline.setCollapsed (limit : Nat) (s : Outline) (i : Nat) : Outline × Option GroupErr :=
  if i ≥ limit then (s, some .limit)
  else match s.opts i with
    | some o => (s.put i { o with collapsed := true }, none)
    | none => (s.put i ⟨0, false, true⟩, none)

inductive OutlineOp where
  /-- `group_rows` / `group_columns` (worksheet.rs:6818, 7167) -/
  | group (a b : Nat)
  /-- `group_rows_collapsed` / `group_columns_collapsed` (worksheet.rs:6986, 7360) -/
  | groupCollapsed (a b : Nat)
  /-- `set_row_hidden` / `set_column_hidden` (worksheet.rs:7606, 8120) -/
  | hide (i : Nat)
  /-- `set_row_unhidden` (worksheet.rs:7649) -/
  | unhide (i : Nat)
  /-- a height, width or format setting: makes an entry when there is none (worksheet.rs:6439-6450,
  6593-6604) -/
  | touch (i : Nat)
deriving DecidableEq, Repr

/-- One call. -/
def Outline.exec (limit : Nat) (s : Outline) : OutlineOp → Outline × Option GroupErr
  | .group a b => s.groupLines limit a b false
  | .groupCollapsed a b =>
    match s.setCollapsed limit (b + 1) with
    | (s, some e) => (s, some e)
    | (s, none) => s.groupLines limit a b true
  | .hide i =>
    if i ≥ limit then (s, some .limit)
    else match s.opts i with
      | some o => (s.put i { o with hidden := true }, none)
      | none => (s.put i ⟨0, true, false⟩, none)
  | .unhide i =>
    if i ≥ limit then (s, some .limit)
    else match s.opts i with
      | some o => (s.put i { o with hidden := false }, none)
      | none => (s, none)
  | .touch i =>
    if i ≥ limit then (s, some .limit)
    else match s.opts i with
      | some _ => (s, none)
      | none => (s.put i ⟨0, false, false⟩, none)

/-- A history of calls, ignoring errors. -/
def Outline.run (limit : Nat) (s : Outline) (ops : List OutlineOp) : Outline :=
  ops.foldl (fun s o => (s.exec limit o).1) s

/-- The `outlineLevel` attribute of a line (worksheet.rs:18927, 19375): 0 = not written. -/
def Outline.level (s : Outline) (i : Nat) : Nat := ((s.opts i).map (·.level)).getD 0
/-- The `hidden` attribute (worksheet.rs:18915, 19367). -/
def Outline.isHidden (s : Outline) (i : Nat) : Bool := ((s.opts i).map (·.hidden)).getD false
/-- The `collapsed` attribute (worksheet.rs:18931, 19379). -/
def Outline.isCollapsed (s : Outline) (i : Nat) : Bool := ((s.opts i).map (·.collapsed)).getD false
/-- `outlineLevelRow` / `outlineLevelCol` of `<sheetFormatPr>` (worksheet.rs:17865-17871). -/
def Outline.declaredMax (s : Outline) : Nat := s.maxLevel

end Verif
