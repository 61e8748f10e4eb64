import Verif.Model.Table
/-!
Autofilter conditions: /repo/src/filter.rs, `filter_column` and `filter_automatic_off`
(/repo/src/worksheet.rs:8575-8638), the hiding of rows at save time (14727-14943) and the `autoFilter` element
(18298-18392).

`lower` stands for `str::to_lowercase` and `cmp` for the comparison of two finite `f64` values given by their
display texts; no property of either is assumed.
-/
namespace Verif

/-- `FilterCriteria`, /repo/src/filter.rs:741-777. -/
inductive Crit where
  | equalTo | notEqualTo | greaterThan | greaterThanOrEqualTo | lessThan | lessThanOrEqualTo
  | beginsWith | doesNotBeginWith | endsWith | doesNotEndWith | contains | doesNotContain
deriving DecidableEq, Repr

/-- `FilterCriteria::operator`, /repo/src/filter.rs:781-796. -/
def Crit.operator : Crit → Str
  | .equalTo => []
  | .lessThan => "lessThan".toList
  | .notEqualTo => "notEqual".toList
  | .greaterThan => "greaterThan".toList
  | .lessThanOrEqualTo => "lessThanOrEqual".toList
  | .greaterThanOrEqualTo => "greaterThanOrEqual".toList
  | .endsWith => []
  | .contains => []
  | .beginsWith => []
  | .doesNotEndWith => "notEqual".toList
  | .doesNotContain => "notEqual".toList
  | .doesNotBeginWith => "notEqual".toList

/-- The types a filter value can have, `IntoFilterData`, /repo/src/filter.rs:887-903 (an `i32` is converted to
`f64`). -/
inductive FilterValue where
  | number (n : F64)
  | text (s : Str)
deriving DecidableEq, Repr

/-- `f64::to_string`. -/
def F64.text : F64 → Str
  | .nan => "NaN".toList
  | .posInf => "inf".toList
  | .negInf => "-inf".toList
  | .finite t => t

/-- `FilterData`, /repo/src/filter.rs:805-810. -/
structure FilterData where
  isNumber : Bool
  string : Str
  number : F64
  criteria : Crit
deriving DecidableEq, Repr

/-- `new_string_and_criteria` and `new_number_and_criteria`, /repo/src/filter.rs:824-853. -/
def FilterValue.data (v : FilterValue) (k : Crit) : FilterData :=
  match v with
  | .text s => ⟨false, s, .finite "0".toList, k⟩
  | .number n => ⟨true, n.text, n, k⟩

/-- `FilterData::value`, /repo/src/filter.rs:856-870. -/
def FilterData.value (d : FilterData) : Str :=
  match d.criteria with
  | .endsWith | .doesNotEndWith => "*".toList ++ d.string
  | .contains | .doesNotContain => "*".toList ++ d.string ++ "*".toList
  | .beginsWith | .doesNotBeginWith => d.string ++ "*".toList
  | _ => d.string

/-- `FilterCondition`, /repo/src/filter.rs:397-404. -/
structure Cond where
  isList : Bool := true
  logicalOr : Bool := true
  blanks : Bool := false
  list : List FilterData := []
  custom1 : Option FilterData := none
  custom2 : Option FilterData := none
deriving DecidableEq, Repr

/-- The builder calls of `FilterCondition`. -/
inductive CondCall where
  | addList (v : FilterValue)
  | addBlanks
  | addCustom (k : Crit) (v : FilterValue)
  | customOr
deriving DecidableEq, Repr

/-- `add_list_filter`, `add_list_blanks_filter`, `add_custom_filter` and `add_custom_boolean_or`,
/repo/src/filter.rs:492-726. -/
def Cond.call (c : Cond) : CondCall → Cond
  | .addList v => { c with list := c.list ++ [v.data .equalTo], isList := true }
  | .addBlanks => { c with blanks := true, isList := true }
  | .addCustom k v =>
    let c :=
      if c.custom1 = none then { c with custom1 := some (v.data k) }
      else if c.custom2 = none then { c with custom2 := some (v.data k), logicalOr := false }
      else c
    { c with isList := false }
  | .customOr => { c with logicalOr := true, isList := false }

/-- `FilterCondition::new` and a chain of builder calls, /repo/src/filter.rs:415-424. -/
def Cond.build (calls : List CondCall) : Cond := calls.foldl Cond.call {}

/-- The characters with the Unicode property `White_Space`, as used by `str::trim`. -/
def isWhite (c : Char) : Bool :=
  let n := c.toNat
  (9 ≤ n && n ≤ 13) || n = 0x20 || n = 0x85 || n = 0xA0 || n = 0x1680 || (0x2000 ≤ n && n ≤ 0x200A) ||
  n = 0x2028 || n = 0x2029 || n = 0x202F || n = 0x205F || n = 0x3000

/-- `str::trim`. -/
def trim (s : Str) : Str := ((s.dropWhile isWhite).reverse.dropWhile isWhite).reverse

/-- `<` on strings: byte-wise comparison of UTF-8, that is, by code points. -/
def textLt : Str → Str → Bool
  | _, [] => false
  | [], _ :: _ => true
  | a :: s, b :: t => if a = b then textLt s t else decide (a.toNat < b.toNat)

/-- `f64::partial_cmp`. -/
def partialCmp (cmp : Str → Str → Ordering) : F64 → F64 → Option Ordering
  | .nan, _ => none
  | _, .nan => none
  | .posInf, .posInf => some .eq
  | .posInf, _ => some .gt
  | .negInf, .negInf => some .eq
  | .negInf, _ => some .lt
  | .finite _, .posInf => some .lt
  | .finite _, .negInf => some .gt
  | .finite a, .finite b => some (cmp a b)

/-- The string cases of `row_matches_list_filter`, /repo/src/worksheet.rs:14781-14791. -/
def matchesListText (lower : Str → Str) (c : Cond) (t : Str) : Bool :=
  let cell := trim (lower t)
  (c.list.any fun f => cell == trim (lower f.string)) || (c.blanks && cell.isEmpty)

/-- `row_matches_list_filter`, /repo/src/worksheet.rs:14764-14820; the cell is the one of the row in the
filtered column. -/
def matchesList (cmp : Str → Str → Ordering) (lower : Str → Str) (c : Cond) : Option Cell → Bool
  | some (.string t _ _) => matchesListText lower c t
  | some (.rich _ raw _ _) => matchesListText lower c raw
  | some (.number n _) => c.list.any fun f => f.isNumber && decide (partialCmp cmp (.finite n) f.number = some .eq)
  | some (.blank _) => c.blanks
  | some _ => false
  | none => c.blanks

/-- The string cases of `row_matches_custom_filter`, /repo/src/worksheet.rs:14873-14905. -/
def matchesCustomText (lower : Str → Str) (f : FilterData) (t : Str) : Bool :=
  let cell := trim (lower t)
  let filter := trim (lower f.string)
  match f.criteria with
  | .equalTo => cell == filter
  | .notEqualTo => cell != filter
  | .lessThan => textLt cell filter
  | .greaterThan => textLt filter cell
  | .lessThanOrEqualTo => !textLt filter cell
  | .greaterThanOrEqualTo => !textLt cell filter
  | .endsWith => endsWith filter cell
  | .doesNotEndWith => !endsWith filter cell
  | .beginsWith => startsWith filter cell
  | .doesNotBeginWith => !startsWith filter cell
  | .contains => containsStr filter cell
  | .doesNotContain => !containsStr filter cell

/-- The number case of `row_matches_custom_filter`, /repo/src/worksheet.rs:14907-14923. -/
def matchesCustomNumber (cmp : Str → Str → Ordering) (f : FilterData) (n : Str) : Bool :=
  let o := partialCmp cmp (.finite n) f.number
  if f.isNumber then
    match f.criteria with
    | .equalTo => decide (o = some .eq)
    | .lessThan => decide (o = some .lt)
    | .notEqualTo => !decide (o = some .eq)
    | .greaterThan => decide (o = some .gt)
    | .lessThanOrEqualTo => decide (o = some .lt) || decide (o = some .eq)
    | .greaterThanOrEqualTo => decide (o = some .gt) || decide (o = some .eq)
    | _ => false
  else false

/-- `row_matches_custom_filter`, /repo/src/worksheet.rs:14860-14943. -/
def matchesCustom (cmp : Str → Str → Ordering) (lower : Str → Str) (f : FilterData) : Option Cell → Bool
  | some (.string t _ _) => matchesCustomText lower f t
  | some (.rich _ raw _ _) => matchesCustomText lower f raw
  | some (.number n _) => matchesCustomNumber cmp f n
  | some (.blank _) => false
  | some _ => decide (f.criteria = .notEqualTo) && f.string == " ".toList
  | none => false

/-- `row_matches_custom_filters`, /repo/src/worksheet.rs:14825-14851. -/
def matchesCustoms (cmp : Str → Str → Ordering) (lower : Str → Str) (c : Cond) (cell : Option Cell) : Bool :=
  let c1 := match c.custom1 with
    | some f => matchesCustom cmp lower f cell
    | none => false
  match c.custom2 with
  | none => c1
  | some f =>
    let c2 := matchesCustom cmp lower f cell
    if c.logicalOr then c1 || c2 else c1 && c2

/-- The choice between the two kinds of filters, /repo/src/worksheet.rs:14740-14750. -/
def Cond.matches (cmp : Str → Str → Ordering) (lower : Str → Str) (c : Cond) (cell : Option Cell) : Bool :=
  if c.isList then matchesList cmp lower c cell else matchesCustoms cmp lower c cell

section
variable {Fmt : Type} [DecidableEq Fmt]

/-- `set_row_unhidden`, /repo/src/worksheet.rs:7649-7665. -/
def Sheet.setRowUnhidden (s : Sheet Fmt) (row : Nat) : Res Fmt :=
  match s.checkDimensions row s.getMinCol with
  | (false, s) => (some .rowColumnLimit, s)
  | (true, s) =>
    match s.changedRows.get row with
    | some o => (none, { s with changedRows := s.changedRows.insert row { o with hidden := false } })
    | none => (none, s)

/-- A worksheet with the conditions of its autofilter (`filter_conditions`, `filter_automatic_off`),
/repo/src/worksheet.rs:1607-1609. -/
structure FSheet (Fmt : Type) where
  tsheet : TSheet Fmt
  conds : BMap Cond := []
  off : Bool := false

/-- The calls on such a worksheet. -/
inductive FOp (Fmt : Type) where
  | base (op : TOp Fmt)
  | unhide (row : Nat)
  | filterColumn (col : Nat) (calls : List CondCall)
  | filterOff

/-- `autofilter` clears the conditions as soon as the range is accepted, before the check for tables,
/repo/src/worksheet.rs:8421-8444. -/
def clearsConds : TOp Fmt → Bool
  | .autofilter d =>
    !(!checkDimensionsOnly d.firstRow d.firstCol || !checkDimensionsOnly d.lastRow d.lastCol) &&
    !(d.firstRow > d.lastRow || d.firstCol > d.lastCol)
  | _ => false

/-- `filter_column`, /repo/src/worksheet.rs:8575-8618; `none` is an error. -/
def FSheet.filterColumn (s : FSheet Fmt) (col : Nat) (c : Cond) : Option (FSheet Fmt) :=
  if col ≥ COL_MAX then none
  else
    match s.tsheet.definedName with
    | none => none
    | some d =>
      if col < d.firstCol || col > d.lastCol then none
      else if c.list.isEmpty && c.custom1.isNone && !c.blanks then none
      else some { s with conds := s.conds.insert col c }

/-- The worksheet after one call; `none` is a panic. -/
def FSheet.exec (lower : Str → Str) (s : FSheet Fmt) : FOp Fmt → Option (FSheet Fmt)
  | .base op =>
    match s.tsheet.exec lower op with
    | none => none
    | some t => some { s with tsheet := t, conds := if clearsConds op then [] else s.conds }
  | .unhide r => some { s with tsheet := { s.tsheet with sheet := (s.tsheet.sheet.setRowUnhidden r).2 } }
  | .filterColumn col calls => some ((s.filterColumn col (Cond.build calls)).getD s)
  | .filterOff => some { s with off := true }

/-- A history of calls; `none` if one of them panics. -/
def FSheet.run (lower : Str → Str) (s : FSheet Fmt) (ops : List (FOp Fmt)) : Option (FSheet Fmt) :=
  ops.foldlM (FSheet.exec lower) s

/-- One row of the loop of `hide_autofilter_rows`, /repo/src/worksheet.rs:14739-14751; `none` is the panic of
`unwrap`. -/
def Sheet.hideRow (cmp : Str → Str → Ordering) (lower : Str → Str) (col : Nat) (c : Cond) (s : Sheet Fmt) (row : Nat) :
    Option (Sheet Fmt) :=
  if c.matches cmp lower ((s.table.get row).bind fun cols => cols.get col) then some s
  else
    match s.setRowHidden row with
    | (none, s) => some s
    | (some _, _) => none

/-- `hide_autofilter_rows`, /repo/src/worksheet.rs:14727-14753. -/
def FSheet.hideRows (cmp : Str → Str → Ordering) (lower : Str → Str) (s : FSheet Fmt) : Option (Sheet Fmt) :=
  if s.conds.isEmpty || s.off then some s.tsheet.sheet
  else
    let d := s.tsheet.definedName.getD ⟨0, 0, 0, 0⟩
    let first := d.firstRow + 1
    s.conds.foldlM (fun sh p => (List.range' first (d.lastRow + 1 - first)).foldlM
      (fun sh row => sh.hideRow cmp lower p.1 p.2 row) sh) s.tsheet.sheet

/-- `write_custom_filter`, /repo/src/worksheet.rs:18382-18392. -/
def customFilterTree (f : FilterData) : Tree :=
  .empty "customFilter".toList
    ((if f.criteria.operator = [] then [] else [("operator".toList, f.criteria.operator)]) ++
     [("val".toList, f.value)])

/-- `write_list_filters`, `write_filter` and `write_custom_filters`, /repo/src/worksheet.rs:18333-18379. -/
def Cond.tree (c : Cond) : Tree :=
  if c.isList then
    let as := if c.blanks then [("blank".toList, "1".toList)] else []
    if c.list.isEmpty then .empty "filters".toList as
    else .node "filters".toList as (c.list.map fun f => .empty "filter".toList [("val".toList, f.string)])
  else
    .node "customFilters".toList (if c.logicalOr then [] else [("and".toList, "1".toList)])
      ((c.custom1.toList ++ c.custom2.toList).map customFilterTree)

/-- `write_auto_filter` and `write_filter_column`, /repo/src/worksheet.rs:18298-18330. -/
def autoFilterTree (area : Dims) (firstCol : Nat) (conds : BMap Cond) : Tree :=
  let as := [("ref".toList, cellRange area.firstRow area.firstCol area.lastRow area.lastCol)]
  if conds.isEmpty then .empty "autoFilter".toList as
  else .node "autoFilter".toList as (conds.map fun p =>
    .node "filterColumn".toList [("colId".toList, showNat (p.1 - firstCol))] [p.2.tree])

/-- The `autoFilter` element of a worksheet, if it has one, /repo/src/worksheet.rs:17392-17395. The range is
`autofilter_area`, but the columns are counted from `autofilter_defined_name` (18305). -/
def FSheet.autoFilter (s : FSheet Fmt) : Option Tree :=
  s.tsheet.area.map fun a => autoFilterTree a (s.tsheet.definedName.getD ⟨0, 0, 0, 0⟩).firstCol s.conds

end
end Verif
