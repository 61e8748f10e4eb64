import Verif.Model.Filter
import Verif.Spec.Sheet
import Verif.Spec.TablePart
/-!
What an autofilter asks of the rows of a worksheet, in words of the API (the documentation of
`FilterCondition` and `FilterCriteria`, /repo/src/filter.rs).
-/
namespace Verif.Spec
variable {Fmt : Type}

/-- The code points of white space (Unicode property `White_Space`). -/
def whiteSpace : List Nat :=
  [0x9, 0xA, 0xB, 0xC, 0xD, 0x20, 0x85, 0xA0, 0x1680, 0x2000, 0x2001, 0x2002, 0x2003, 0x2004, 0x2005, 0x2006, 0x2007,
   0x2008, 0x2009, 0x200A, 0x2028, 0x2029, 0x202F, 0x205F, 0x3000]

/-- Text without white space at the start. -/
def stripStart : Str → Str
  | [] => []
  | c :: s => if c.toNat ∈ whiteSpace then stripStart s else c :: s

/-- Text without white space at the ends. -/
def strip (s : Str) : Str := (stripStart (stripStart s).reverse).reverse

/-- Text as a filter compares it: in lower case, without white space at the ends. -/
def norm (lower : Str → Str) (s : Str) : Str := strip (lower s)

/-- The order of texts by code points. -/
def Before (s t : Str) : Prop :=
  (∃ u, u ≠ [] ∧ t = s ++ u) ∨
  ∃ (p : Str) (a b : Char) (s' t' : Str), s = p ++ a :: s' ∧ t = p ++ b :: t' ∧ a.toNat < b.toNat

/-- A filter value as text. -/
def valueText : FilterValue → Str
  | .text s => s
  | .number .nan => "NaN".toList
  | .number .posInf => "inf".toList
  | .number .negInf => "-inf".toList
  | .number (.finite t) => t

/-- How the number of a cell compares with the number of a filter: not at all with NaN. -/
def numOrder (cmp : Str → Str → Ordering) (n : Str) : F64 → Option Ordering
  | .nan => none
  | .posInf => some .lt
  | .negInf => some .gt
  | .finite t => some (cmp n t)

/-- The text `t` meets the criterion with the value `v`. -/
def TextMeets (k : Crit) (t v : Str) : Prop :=
  match k with
  | .equalTo => t = v
  | .notEqualTo => t ≠ v
  | .lessThan => Before t v
  | .lessThanOrEqualTo => Before t v ∨ t = v
  | .greaterThan => Before v t
  | .greaterThanOrEqualTo => Before v t ∨ t = v
  | .beginsWith => ∃ u, t = v ++ u
  | .doesNotBeginWith => ¬ ∃ u, t = v ++ u
  | .endsWith => ∃ u, t = u ++ v
  | .doesNotEndWith => ¬ ∃ u, t = u ++ v
  | .contains => ∃ u w, t = u ++ v ++ w
  | .doesNotContain => ¬ ∃ u w, t = u ++ v ++ w

/-- A number meets the criterion with another number, where `o` is how they compare. The text criteria are met by
texts only. -/
def NumberMeets (k : Crit) (o : Option Ordering) : Prop :=
  match k with
  | .equalTo => o = some .eq
  | .notEqualTo => o ≠ some .eq
  | .lessThan => o = some .lt
  | .lessThanOrEqualTo => o = some .lt ∨ o = some .eq
  | .greaterThan => o = some .gt
  | .greaterThanOrEqualTo => o = some .gt ∨ o = some .eq
  | _ => False

/-- A cell with this content is shown by a custom filter: numbers and texts that meet the criterion; a number and a
text value are equal if the number reads like the text. Blank cells are not shown. The other kinds of cells count
only as being there: they are shown by the filter for non-blanks, "not equal to a space". -/
def Meets (cmp : Str → Str → Ordering) (lower : Str → Str) (k : Crit) (v : FilterValue) : Content → Prop
  | .text t => TextMeets k (norm lower t) (norm lower (valueText v))
  | .rich _ t => TextMeets k (norm lower t) (norm lower (valueText v))
  | .number n => match v with
    | .number x => NumberMeets k (numOrder cmp n x)
    | .text s => (k = .equalTo ∧ n = strip s) ∨ (k = .notEqualTo ∧ n ≠ strip s)
  | .blank => False
  | _ => k = .notEqualTo ∧ valueText v = " ".toList

/-- A cell with this content is one of the values of a list filter. -/
def Is (cmp : Str → Str → Ordering) (lower : Str → Str) (v : FilterValue) : Content → Prop
  | .text t => norm lower t = norm lower (valueText v)
  | .rich _ t => norm lower t = norm lower (valueText v)
  | .number n => match v with
    | .number x => numOrder cmp n x = some .eq
    | .text s => n = strip s
  | _ => False

/-- A cell with this content counts as blank: nothing there, or nothing but white space. -/
def IsBlank (lower : Str → Str) : Content → Prop
  | .blank => True
  | .text t => norm lower t = []
  | .rich _ t => norm lower t = []
  | _ => False

/-- What a condition says. -/
inductive Meaning where
  | list (values : List FilterValue) (blanks : Bool)
  | custom (conds : List (Crit × FilterValue)) (or : Bool)

/-- The values of the list filters. -/
def listValues (calls : List CondCall) : List FilterValue :=
  calls.filterMap fun | .addList v => some v | _ => none

/-- The custom filters. -/
def customs (calls : List CondCall) : List (Crit × FilterValue) :=
  calls.filterMap fun | .addCustom k v => some (k, v) | _ => none

/-- The calls made after `n` custom filters are there. -/
def afterCustoms : Nat → List CondCall → List CondCall
  | 0, calls => calls
  | _, [] => []
  | n + 1, .addCustom _ _ :: calls => afterCustoms n calls
  | n + 1, _ :: calls => afterCustoms (n + 1) calls

/-- The condition made by a chain of calls: the last call decides between a list and custom filters; the first two
custom filters count; they are joined by "or" if that is asked for after the second one, else by "and". -/
def meaning (calls : List CondCall) : Meaning :=
  match calls.getLast? with
  | some (.addCustom _ _) | some .customOr =>
    .custom ((customs calls).take 2) ((afterCustoms 2 calls).contains .customOr)
  | _ => .list (listValues calls) (calls.contains .addBlanks)

/-- A cell with this content is shown by the condition. -/
def Accepts (cmp : Str → Str → Ordering) (lower : Str → Str) (m : Meaning) (ct : Content) : Prop :=
  match m with
  | .list vs b => (∃ v ∈ vs, Is cmp lower v ct) ∨ (b = true ∧ IsBlank lower ct)
  | .custom [a] _ => Meets cmp lower a.1 a.2 ct
  | .custom [a, b] true => Meets cmp lower a.1 a.2 ct ∨ Meets cmp lower b.1 b.2 ct
  | .custom [a, b] false => Meets cmp lower a.1 a.2 ct ∧ Meets cmp lower b.1 b.2 ct
  | _ => False

/-- The values a condition compares with. -/
def Meaning.values : Meaning → List FilterValue
  | .list vs _ => vs
  | .custom cs _ => cs.map Prod.snd

/-- What the calls say about filters and hidden rows. -/
structure FilterState where
  range : Option Dims := none
  cond : Nat → Option (List CondCall) := fun _ => none
  off : Bool := false
  hidden : Nat → Bool := fun _ => false

/-- The range lies in the worksheet. -/
def rangeOk (d : Dims) : Prop :=
  d.firstRow ≤ d.lastRow ∧ d.firstCol ≤ d.lastCol ∧ d.lastRow < 1048576 ∧ d.lastCol < 16384

instance (d : Dims) : Decidable (rangeOk d) := inferInstanceAs (Decidable (_ ∧ _ ∧ _ ∧ _))

/-- The condition compares with something. -/
def saysSomething (calls : List CondCall) : Bool := calls.any fun | .customOr => false | _ => true

/-- `col` is a column of the range. -/
def inColumns (range : Option Dims) (col : Nat) : Bool :=
  match range with
  | none => false
  | some d => d.firstCol ≤ col && col ≤ d.lastCol

/-- One call. A new range drops the conditions, also if the call is refused because of a table in the way. -/
def FilterState.step (st : FilterState) : FOp Fmt → FilterState
  | .base (.autofilter d) => if rangeOk d then { st with range := some d, cond := fun _ => none } else st
  | .base (.cell (.rowHidden r)) => if r < 1048576 then { st with hidden := fun x => x = r || st.hidden x } else st
  | .unhide r => if r < 1048576 then { st with hidden := fun x => x ≠ r && st.hidden x } else st
  | .filterColumn col calls =>
    if inColumns st.range col = true ∧ saysSomething calls = true then
      { st with cond := fun c => if c = col then some calls else st.cond c }
    else st
  | .filterOff => { st with off := true }
  | _ => st

/-- The filters and hidden rows after a history of calls. -/
def filterState (ops : List (FOp Fmt)) : FilterState := ops.foldl FilterState.step {}

/-- Row `r` is a data row of the autofilter. -/
def FilterState.dataRow (st : FilterState) (r : Nat) : Prop :=
  ∃ d, st.range = some d ∧ d.firstRow < r ∧ r ≤ d.lastRow

/-- Row `r`, with contents `row` by column, is filtered out: it is a data row, and some filtered column has a cell
the condition of the column does not show. -/
def FilterState.filteredOut (cmp : Str → Str → Ordering) (lower : Str → Str) (st : FilterState) (r : Nat)
    (row : Nat → Content) : Prop :=
  st.off = false ∧ st.dataRow r ∧ ∃ c calls, st.cond c = some calls ∧ ¬ Accepts cmp lower (meaning calls) (row c)

/-- The settings written for row `r`, if the row is written with any. -/
def rowSettings (rows : List (RowOut Fmt)) (r : Nat) : Option (RowOpt Fmt) :=
  (rows.find? fun ro => ro.row == r).bind (·.opt)

/-- Row `r` is written as hidden. -/
def rowIsHidden (rows : List (RowOut Fmt)) (r : Nat) : Prop := ∃ o, rowSettings rows r = some o ∧ o.hidden = true

/-! ### Reading the `autoFilter` element (ECMA-376 part 1, 18.3.1.2, 18.3.2) -/

/-- What a `filterColumn` says. -/
inductive FilterSeen where
  | list (vals : List Str) (blanks : Bool)
  | custom (and : Bool) (conds : List (Str × Str))
deriving DecidableEq, Repr

/-- One `customFilter`: the operator (18.18.30; `equal` if it is not there) and the value. -/
def readCustomFilter (as : NodeAttrs) : Option (Str × Str) :=
  (as.lookup "val".toList).map fun v => ((as.lookup "operator".toList).getD "equal".toList, v)

/-- The content of a `filterColumn`. -/
def readFilterKind (ks : List Node) : Option FilterSeen :=
  match child "filters".toList ks, child "customFilters".toList ks with
  | some f, none =>
    ((childrenAll "filter".toList f.2).bind fun l => l.mapM fun e => e.1.lookup "val".toList).map fun vs =>
      .list vs (oneRow "blank".toList false f.1)
  | none, some f =>
    ((childrenAll "customFilter".toList f.2).bind fun l => l.mapM fun e => readCustomFilter e.1).map fun cs =>
      .custom (oneRow "and".toList false f.1) cs
  | _, _ => none

/-- One `filterColumn`: the column of the worksheet it is for, and what it says. -/
def readFilterColumn (firstCol : Nat) (e : NodeAttrs × List Node) : Option (Nat × FilterSeen) :=
  match attrNat "colId".toList e.1, readFilterKind e.2 with
  | some i, some k => some (firstCol + i, k)
  | _, _ => none

/-- An `autoFilter` element: its range and its columns. -/
def readAutoFilter : Node → Option (RangeSeen × List (Nat × FilterSeen))
  | .text _ => none
  | .elem root as ks =>
    if root ≠ "autoFilter".toList then none
    else match (as.lookup "ref".toList).bind readRange with
      | none => none
      | some rg => ((childrenAll "filterColumn".toList ks).bind fun l => l.mapM (readFilterColumn rg.1.2)).map fun l => (rg, l)

/-- The operator and the pattern that stand for a custom filter, in Excel's notation with the wild card `*`. -/
def filterPattern (k : Crit) (v : Str) : Str × Str :=
  match k with
  | .equalTo => ("equal".toList, v)
  | .notEqualTo => ("notEqual".toList, v)
  | .lessThan => ("lessThan".toList, v)
  | .lessThanOrEqualTo => ("lessThanOrEqual".toList, v)
  | .greaterThan => ("greaterThan".toList, v)
  | .greaterThanOrEqualTo => ("greaterThanOrEqual".toList, v)
  | .beginsWith => ("equal".toList, v ++ ['*'])
  | .doesNotBeginWith => ("notEqual".toList, v ++ ['*'])
  | .endsWith => ("equal".toList, '*' :: v)
  | .doesNotEndWith => ("notEqual".toList, '*' :: v)
  | .contains => ("equal".toList, '*' :: v ++ ['*'])
  | .doesNotContain => ("notEqual".toList, '*' :: v ++ ['*'])

/-- What is to be read for a condition. With a single custom filter "and" and "or" say the same. -/
def seenAs : Meaning → FilterSeen
  | .list vs b => .list (vs.map valueText) b
  | .custom cs or => .custom (decide (cs.length = 2) && !or) (cs.map fun p => filterPattern p.1 (valueText p.2))

end Verif.Spec
