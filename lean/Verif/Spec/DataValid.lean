import Verif.Model.DataValid
import Verif.Spec.CondFormula
/-!
Data validations (C57): how a reader sees them (ECMA-376, 18.3.1.32 and 18.3.1.33), and what the calls mean.
-/
namespace Verif.Spec

/-- What a validation allows. -/
inductive Allowed where
  | any
  | whole (op : OpSeen) (values : List Text)
  | decimal (op : OpSeen) (values : List Text)
  | date (op : OpSeen) (values : List Text)
  | time (op : OpSeen) (values : List Text)
  | textLength (op : OpSeen) (values : List Text)
  | list (source : Text)
  | custom (formula : Text)
deriving DecidableEq

/-- A validation as a reader sees it. -/
structure DvSeen where
  allowed : Allowed
  style : DvStyle
  allowBlank : Bool
  dropdown : Bool
  showInput : Bool
  showError : Bool
  errorTitle : Text
  error : Text
  promptTitle : Text
  prompt : Text
deriving DecidableEq

/-! ### Reading -/

/-- The formulas of a validation. -/
def dvFormulas (ks : List Node) : Option (List Text) :=
  match (elems "formula1".toList ks).mapM (fun e => textOnly e.2), (elems "formula2".toList ks).mapM (fun e => textOnly e.2) with
  | some a, some b => if a.length ≤ 1 ∧ b.length ≤ 1 then some (a ++ b) else none
  | _, _ => none

/-- The number of values of an operator. -/
def opArity : OpSeen → Nat
  | .between => 2
  | .notBetween => 2
  | _ => 1

/-- A comparison: the operator is `between` if there is none, and it has as many values as it needs. -/
def readCompare (mk : OpSeen → List Text → Allowed) (as : NodeAttrs) (fs : List Text) : Option Allowed :=
  match as.lookup "operator".toList with
  | none => if fs.length = 2 then some (mk .between fs) else none
  | some o =>
    match readOp o with
    | some op => if fs.length = opArity op then some (mk op fs) else none
    | none => none

/-- The attribute `operator`, which has no meaning for lists and formulas, still has to be one of the operators. -/
def operatorOk (as : NodeAttrs) : Bool :=
  match as.lookup "operator".toList with
  | none => true
  | some o => (readOp o).isSome

/-- What is allowed. -/
def readAllowed (as : NodeAttrs) (fs : List Text) : Option Allowed :=
  match as.lookup "type".toList with
  | none => if fs = [] then some .any else none
  | some t =>
    if t = "none".toList then (if fs = [] then some .any else none)
    else if t = "whole".toList then readCompare .whole as fs
    else if t = "decimal".toList then readCompare .decimal as fs
    else if t = "date".toList then readCompare .date as fs
    else if t = "time".toList then readCompare .time as fs
    else if t = "textLength".toList then readCompare .textLength as fs
    else if t = "list".toList then
      match fs with
      | [f] => if operatorOk as then some (.list f) else none
      | _ => none
    else if t = "custom".toList then
      match fs with
      | [f] => if operatorOk as then some (.custom f) else none
      | _ => none
    else none

/-- The style of the error message. -/
def readAlertStyle (as : NodeAttrs) : Option DvStyle :=
  match as.lookup "errorStyle".toList with
  | none => some .stop
  | some s =>
    if s = "stop".toList then some .stop
    else if s = "warning".toList then some .warning
    else if s = "information".toList then some .information
    else none

/-- A `dataValidation` element: the range and the validation. The attribute `showDropDown` hides the list. -/
def readValidation (e : NodeAttrs × List Node) : Option (Text × DvSeen) :=
  match e.1.lookup "sqref".toList, (dvFormulas e.2).bind (readAllowed e.1), readAlertStyle e.1,
      attrFlag "allowBlank".toList false e.1, attrFlag "showDropDown".toList false e.1,
      attrFlag "showInputMessage".toList false e.1, attrFlag "showErrorMessage".toList false e.1 with
  | some range, some al, some st, some bl, some dd, some si, some se =>
    some (range, ⟨al, st, bl, !dd, si, se, (e.1.lookup "errorTitle".toList).getD [], (e.1.lookup "error".toList).getD [],
      (e.1.lookup "promptTitle".toList).getD [], (e.1.lookup "prompt".toList).getD []⟩)
  | _, _, _, _, _, _, _ => none

/-- A `dataValidations` element: the count must be right. -/
def readValidations : Node → Option (List (Text × DvSeen))
  | .elem t as ks =>
    if t = "dataValidations".toList ∧ attrNat "count".toList as = some (elems "dataValidation".toList ks).length then
      (elems "dataValidation".toList ks).mapM readValidation
    else none
  | .text _ => none

/-! ### Meaning -/

/-- The operator and the values of a rule. -/
def compareMeant : DvUserRule → OpSeen × List Text
  | .equalTo v => (.equal, [v])
  | .notEqualTo v => (.notEqual, [v])
  | .greaterThan v => (.greaterThan, [v])
  | .greaterThanOrEqualTo v => (.greaterThanOrEqual, [v])
  | .lessThan v => (.lessThan, [v])
  | .lessThanOrEqualTo v => (.lessThanOrEqual, [v])
  | .between a b => (.between, [a, b])
  | .notBetween a b => (.notBetween, [a, b])

/-- What the last of the calls that say so says, or else the default. -/
def lastSaid {κ α : Type} (f : κ → Option α) (default : α) (calls : List κ) : α :=
  (calls.reverse.findSome? f).getD default

/-- A list of strings as a formula: a text of the strings with commas between them, and its quotes doubled. -/
def listText (items : List Text) : Text := List.intercalate [','] items

/-- A text as a formula. -/
def quotedText (t : Text) : Text := '"' :: t.flatMap (fun c => if c = '"' then ['"', '"'] else [c]) ++ ['"']

/-- What a call allows. -/
def callAllows : DvCall → Option Allowed
  | .wholeNumber r => some (.whole (compareMeant r).1 (compareMeant r).2)
  | .decimalNumber r => some (.decimal (compareMeant r).1 (compareMeant r).2)
  | .date r => some (.date (compareMeant r).1 (compareMeant r).2)
  | .time r => some (.time (compareMeant r).1 (compareMeant r).2)
  | .textLength r => some (.textLength (compareMeant r).1 (compareMeant r).2)
  | .listStrings items => some (.list (quotedText (listText items)))
  | .listFormula f => some (.list f)
  | .custom f => some (.custom f)
  | .anyValue => some .any
  | _ => none

/-- What is allowed after calls. -/
def allowedBy (calls : List DvCall) : Allowed := lastSaid callAllows .any calls

/-- A validation after calls: the last call of each kind counts. Where any value is allowed, there is no error and no style of
errors. -/
def dvMeant (calls : List DvCall) : DvSeen where
  allowed := allowedBy calls
  style := if allowedBy calls = .any then .stop else
    lastSaid (fun c => match c with | .errorStyle s => some s | _ => none) .stop calls
  allowBlank := lastSaid (fun c => match c with | .ignoreBlank b => some b | _ => none) true calls
  dropdown := lastSaid (fun c => match c with | .showDropdown b => some b | _ => none) true calls
  showInput := lastSaid (fun c => match c with | .showInput b => some b | _ => none) true calls
  showError := lastSaid (fun c => match c with | .showError b => some b | _ => none) true calls
  errorTitle := lastSaid (fun c => match c with | .errorTitle t => some t | _ => none) [] calls
  error := lastSaid (fun c => match c with | .errorMessage t => some t | _ => none) [] calls
  promptTitle := lastSaid (fun c => match c with | .inputTitle t => some t | _ => none) [] calls
  prompt := lastSaid (fun c => match c with | .inputMessage t => some t | _ => none) [] calls

/-- A call within Excel's limits. -/
def DvCallLegal : DvCall → Prop
  | .listStrings items => (quotedText (listText items)).length ≤ 257
  | .inputTitle t => t.length ≤ 32
  | .errorTitle t => t.length ≤ 32
  | .inputMessage t => t.length ≤ 255
  | .errorMessage t => t.length ≤ 255
  | _ => True

/-- A text in parts, at the commas. -/
def splitCommas : Text → List Text
  | [] => [[]]
  | c :: cs =>
    if c = ',' then [] :: splitCommas cs
    else match splitCommas cs with
      | p :: ps => (c :: p) :: ps
      | [] => [[c]]

/-- The list that a formula is: a text, at the commas. -/
def readListSource (e : FEnv) (f : Text) : Option (List Text) :=
  match evalFormula e f with
  | some (.text t) => some (splitCommas t)
  | _ => none

/-- The texts of a rule. -/
def ruleTexts : DvUserRule → List Text
  | .equalTo v | .notEqualTo v | .greaterThan v | .greaterThanOrEqualTo v | .lessThan v | .lessThanOrEqualTo v => [v]
  | .between a b | .notBetween a b => [a, b]

/-- The texts of a call. -/
def callTexts : DvCall → List Text
  | .wholeNumber r | .decimalNumber r | .date r | .time r | .textLength r => ruleTexts r
  | .listStrings items => items
  | .listFormula t | .custom t | .inputTitle t | .inputMessage t | .errorTitle t | .errorMessage t | .multiRange t => [t]
  | .anyValue | .ignoreBlank _ | .showDropdown _ | .showInput _ | .showError _ | .errorStyle _ => []

/-- A call on a worksheet: a range and the calls that made the validation. -/
abbrev AddCall := Dims × List DvCall

/-- A range in the grid. -/
def InGrid (d : Dims) : Prop := d.firstRow ≤ d.lastRow ∧ d.firstCol ≤ d.lastCol ∧ d.lastRow < 1048576 ∧ d.lastCol < 16384

/-- The list of ranges that a call sets: without dollar signs, and with spaces for commas. -/
def multiSaid : DvCall → Option Text
  | .multiRange t => some ((t.filter (· ≠ '$')).map fun x => if x = ',' then ' ' else x)
  | _ => none

/-- The ranges of a call: the one of the call, or the last list of ranges that was set. -/
def addRange (c : AddCall) : Text :=
  let multi := lastSaid multiSaid [] c.2
  if multi = [] then cellRange c.1.firstRow c.1.firstCol c.1.lastRow c.1.lastCol else multi

/-- A validation that does nothing: any value is allowed and there is no text. -/
def Idle (v : DvSeen) : Prop := v.allowed = .any ∧ v.errorTitle = [] ∧ v.error = [] ∧ v.promptTitle = [] ∧ v.prompt = []

/-- The validation of a range is that of the last call with this range that does something. -/
def LastFor (calls : List AddCall) (range : Text) (v : DvSeen) : Prop :=
  ∃ before c after, calls = before ++ c :: after ∧ InGrid c.1 ∧ ¬ Idle (dvMeant c.2) ∧ addRange c = range ∧ dvMeant c.2 = v ∧
    ∀ c' ∈ after, InGrid c'.1 → ¬ Idle (dvMeant c'.2) → addRange c' ≠ range

end Verif.Spec
