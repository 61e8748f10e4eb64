import Verif.Model.Notes
import Verif.Model.Sheet
/-!
Data validations: the settings (/repo/src/data_validation.rs), `add_data_validation`
(/repo/src/worksheet.rs:9172-9209) and the `dataValidations` element (/repo/src/worksheet.rs:18013-18152).
-/
namespace Verif

/-- `DataValidationType`, /repo/src/data_validation.rs:1432-1448. -/
inductive DvType where
  | whole | decimal | date | time | textLength | custom | list | any
deriving DecidableEq, Repr

/-- `DataValidationRuleInternal`, /repo/src/data_validation.rs:1540-1560. The values are texts: numbers, dates and formulas as
`to_string_value` (1337-1424) shows them. -/
inductive DvRule where
  | equalTo (v : Str)
  | notEqualTo (v : Str)
  | greaterThan (v : Str)
  | greaterThanOrEqualTo (v : Str)
  | lessThan (v : Str)
  | lessThanOrEqualTo (v : Str)
  | between (a b : Str)
  | notBetween (a b : Str)
  | customFormula (v : Str)
  | listSource (v : Str)
deriving DecidableEq, Repr

/-- `DataValidationErrorStyle`, /repo/src/data_validation.rs:1587-1596. -/
inductive DvStyle where
  | stop | warning | information
deriving DecidableEq, Repr

/-- `DataValidation`, /repo/src/data_validation.rs:180-193, with the defaults of `new` (203-218). -/
structure DataValidation where
  type : DvType := .any
  rule : DvRule := .equalTo []
  ignoreBlank : Bool := true
  showInput : Bool := true
  showError : Bool := true
  showDropdown : Bool := true
  multi : Str := []
  inputTitle : Str := []
  errorTitle : Str := []
  inputMessage : Str := []
  errorMessage : Str := []
  style : DvStyle := .stop
deriving DecidableEq, Repr

/-- `DataValidationRule`, /repo/src/data_validation.rs:1473-1499, with the values as texts. -/
inductive DvUserRule where
  | equalTo (v : Str)
  | notEqualTo (v : Str)
  | greaterThan (v : Str)
  | greaterThanOrEqualTo (v : Str)
  | lessThan (v : Str)
  | lessThanOrEqualTo (v : Str)
  | between (a b : Str)
  | notBetween (a b : Str)
deriving DecidableEq, Repr

/-- `to_internal_rule`, /repo/src/data_validation.rs:1502-1530. -/
def DvUserRule.internal : DvUserRule → DvRule
  | .equalTo v => .equalTo v
  | .notEqualTo v => .notEqualTo v
  | .greaterThan v => .greaterThan v
  | .greaterThanOrEqualTo v => .greaterThanOrEqualTo v
  | .lessThan v => .lessThan v
  | .lessThanOrEqualTo v => .lessThanOrEqualTo v
  | .between a b => .between a b
  | .notBetween a b => .notBetween a b

/-- The calls on a data validation. The functions for values and for formulas of a type are one call here. -/
inductive DvCall where
  | wholeNumber (r : DvUserRule)
  | decimalNumber (r : DvUserRule)
  | listStrings (items : List Str)
  | listFormula (f : Str)
  | date (r : DvUserRule)
  | time (r : DvUserRule)
  | textLength (r : DvUserRule)
  | custom (f : Str)
  | anyValue
  | ignoreBlank (b : Bool)
  | showDropdown (b : Bool)
  | showInput (b : Bool)
  | inputTitle (t : Str)
  | inputMessage (t : Str)
  | showError (b : Bool)
  | errorTitle (t : Str)
  | errorMessage (t : Str)
  | errorStyle (s : DvStyle)
  | multiRange (t : Str)

/-- `join(",")` of the strings with doubled quotes, /repo/src/data_validation.rs:558-562. -/
def dvJoin (items : List Str) : Str :=
  List.intercalate [','] (items.map fun s => s.flatMap fun c => if c = '"' then ['"', '"'] else [c])

/-- A call: `none` is an error, and the validation is lost. /repo/src/data_validation.rs:271-1314. -/
def DataValidation.exec (d : DataValidation) : DvCall → Option DataValidation
  | .wholeNumber r => some { d with rule := r.internal, type := .whole }
  | .decimalNumber r => some { d with rule := r.internal, type := .decimal }
  | .listStrings items =>
    if (dvJoin items).length > 255 then none
    else some { d with rule := .listSource ('"' :: dvJoin items ++ ['"']), type := .list }
  | .listFormula f => some { d with rule := .listSource f, type := .list }
  | .date r => some { d with rule := r.internal, type := .date }
  | .time r => some { d with rule := r.internal, type := .time }
  | .textLength r => some { d with rule := r.internal, type := .textLength }
  | .custom f => some { d with rule := .customFormula f, type := .custom }
  | .anyValue => some { d with rule := .equalTo [], type := .any }
  | .ignoreBlank b => some { d with ignoreBlank := b }
  | .showDropdown b => some { d with showDropdown := b }
  | .showInput b => some { d with showInput := b }
  | .inputTitle t => if t.length > 32 then none else some { d with inputTitle := t }
  | .inputMessage t => if t.length > 255 then none else some { d with inputMessage := t }
  | .showError b => some { d with showError := b }
  | .errorTitle t => if t.length > 32 then none else some { d with errorTitle := t }
  | .errorMessage t => if t.length > 255 then none else some { d with errorMessage := t }
  | .errorStyle s => some { d with style := s }
  | .multiRange t => some { d with multi := (t.filter (· ≠ '$')).map fun x => if x = ',' then ' ' else x }

/-- A new validation after calls. -/
def DataValidation.build (calls : List DvCall) : Option DataValidation := calls.foldlM DataValidation.exec {}

/-- `is_invalid_any`, /repo/src/data_validation.rs:1322-1328. -/
def DataValidation.isInvalidAny (d : DataValidation) : Bool :=
  d.type = .any && d.inputTitle.isEmpty && d.inputMessage.isEmpty && d.errorTitle.isEmpty && d.errorMessage.isEmpty

/-- The field `data_validations`: a `BTreeMap<String, DataValidation>`, as the list of its entries in order. -/
abbrev DvMap := List (Str × DataValidation)

/-- The range under which a validation is stored, /repo/src/worksheet.rs:9201-9204. -/
def DataValidation.key (d : DataValidation) (r : Dims) : Str :=
  if d.multi.isEmpty then cellRange r.firstRow r.firstCol r.lastRow r.lastCol else d.multi

/-- `add_data_validation`, /repo/src/worksheet.rs:9172-9209; `false` is an error. -/
def addDataValidation (m : DvMap) (r : Dims) (d : DataValidation) : Bool × DvMap :=
  if r.firstRow ≥ ROW_MAX || r.firstCol ≥ COL_MAX || r.lastRow ≥ ROW_MAX || r.lastCol ≥ COL_MAX then
    (false, m)
  else if r.firstRow > r.lastRow || r.firstCol > r.lastCol then (false, m)
  else if d.isInvalidAny then (true, m)
  else (true, smapInsert (d.key r) d m)

/-- All calls on a worksheet. -/
def runValidations (calls : List (Dims × DataValidation)) : DvMap :=
  calls.foldl (fun m c => (addDataValidation m c.1 c.2).2) []

/-- `to_string`, /repo/src/data_validation.rs:1450-1463. -/
def DvType.name : DvType → Str
  | .any => "any".toList
  | .date => "date".toList
  | .list => "list".toList
  | .time => "time".toList
  | .whole => "whole".toList
  | .custom => "custom".toList
  | .decimal => "decimal".toList
  | .textLength => "textLength".toList

/-- `to_string`, /repo/src/data_validation.rs:1562-1577. -/
def DvRule.name : DvRule → Str
  | .equalTo _ => "equal".toList
  | .lessThan _ => "lessThan".toList
  | .between _ _ => "between".toList
  | .listSource _ => "list".toList
  | .notEqualTo _ => "notEqual".toList
  | .greaterThan _ => "greaterThan".toList
  | .customFormula _ => []
  | .notBetween _ _ => "notBetween".toList
  | .lessThanOrEqualTo _ => "lessThanOrEqual".toList
  | .greaterThanOrEqualTo _ => "greaterThanOrEqual".toList

/-- `to_string`, /repo/src/data_validation.rs:1598-1606. -/
def DvStyle.name : DvStyle → Str
  | .stop => "stop".toList
  | .warning => "warning".toList
  | .information => "information".toList

/-- An attribute that is only written if a condition holds. -/
def attrIf (b : Bool) (n v : Str) : Attrs := if b then [(n, v)] else []

/-- The attributes that both functions write, /repo/src/worksheet.rs:18056-18088 and 18117-18149. -/
def DataValidation.commonAttrs (d : DataValidation) (range : Str) : Attrs :=
  attrIf d.ignoreBlank "allowBlank".toList "1".toList ++
  (attrIf (!d.showDropdown) "showDropDown".toList "1".toList ++
  (attrIf d.showInput "showInputMessage".toList "1".toList ++
  (attrIf d.showError "showErrorMessage".toList "1".toList ++
  (attrIf (!d.errorTitle.isEmpty) "errorTitle".toList d.errorTitle ++
  (attrIf (!d.errorMessage.isEmpty) "error".toList d.errorMessage ++
  (attrIf (!d.inputTitle.isEmpty) "promptTitle".toList d.inputTitle ++
  (attrIf (!d.inputMessage.isEmpty) "prompt".toList d.inputMessage ++
  [("sqref".toList, range)])))))))

/-- The attribute `operator`, /repo/src/worksheet.rs:18045-18054. -/
def DvRule.operatorAttrs (r : DvRule) : Attrs :=
  match r with
  | .between _ _ => []
  | .customFormula _ => []
  | .listSource _ => []
  | r => [("operator".toList, r.name)]

/-- The formulas, /repo/src/worksheet.rs:18093-18109. -/
def DvRule.formulaTrees : DvRule → List Tree
  | .equalTo v | .notEqualTo v | .lessThan v | .lessThanOrEqualTo v | .greaterThan v | .greaterThanOrEqualTo v
  | .listSource v | .customFormula v => [.data "formula1".toList v []]
  | .between a b | .notBetween a b => [.data "formula1".toList a [], .data "formula2".toList b []]

/-- `write_data_validation` and `write_data_validation_any`, /repo/src/worksheet.rs:18028-18152. -/
def DataValidation.tree (d : DataValidation) (range : Str) : Tree :=
  if d.type = .any then .empty "dataValidation".toList (d.commonAttrs range)
  else .node "dataValidation".toList
    (("type".toList, d.type.name) ::
      (attrIf (d.style ≠ .stop) "errorStyle".toList d.style.name ++ (d.rule.operatorAttrs ++ d.commonAttrs range)))
    d.rule.formulaTrees

/-- `write_data_validations`, /repo/src/worksheet.rs:18014-18025. -/
def dataValidationsTree (m : DvMap) : Tree :=
  .node "dataValidations".toList [("count".toList, showNat m.length)] (m.map fun p => p.2.tree p.1)

end Verif
