import Verif.Spec.Table
import Verif.Spec.Formula
import Verif.Spec.Dec
/-!
The formulas of a total row: `SUBTOTAL(n,[column])`, with a structured reference to a column of the table around it
(ECMA-376 part 1, 18.17.2.7 and 18.17.7.307).
-/
namespace Verif.Spec
variable {Fmt : Type}

/-- A column in brackets, behind the opening one: a single quote stands in front of a bracket, a number sign or a
single quote of the name. -/
def readColumnRef : List Char → Option (List Char × List Char)
  | [] => none
  | ']' :: s => some ([], s)
  | '\'' :: c :: s =>
    if c = '[' ∨ c = ']' ∨ c = '#' ∨ c = '\'' then (readColumnRef s).map fun p => (c :: p.1, p.2) else none
  | c :: s => if c = '[' ∨ c = '#' ∨ c = '\'' then none else (readColumnRef s).map fun p => (c :: p.1, p.2)

/-- The column and the closing bracket. -/
def readTotalColumn (n : Nat) (s : List Char) : Option (Nat × List Char) :=
  match readColumnRef s with
  | some (name, [')']) => some (n, name)
  | _ => none

/-- `SUBTOTAL(n,[column])`: the number and the column. -/
def readSubtotal (s : List Char) : Option (Nat × List Char) :=
  if "SUBTOTAL(".toList.isPrefixOf s then
    match readNat ((s.drop 9).takeWhile isDigit), (s.drop 9).dropWhile isDigit with
    | some n, ',' :: '[' :: r => readTotalColumn n r
    | _, _ => none
  else none

/-- The numbers of the functions that leave out hidden rows. -/
def subtotalNumber : TotalFn → Option Nat
  | .average => some 101
  | .countNumbers => some 102
  | .count => some 103
  | .max => some 104
  | .min => some 105
  | .stdDev => some 107
  | .sum => some 109
  | .var => some 110
  | .none => none
  | .custom _ => none

/-- A name that holds no call of a future function and no double quote behind a capital letter, a digit or a dot. -/
def PlainName (n : List Char) : Prop :=
  (∀ t, t <:+ n → ∀ f, calledHere t = some f → storedPrefix f = []) ∧ literalsApart false false n = true

end Verif.Spec
