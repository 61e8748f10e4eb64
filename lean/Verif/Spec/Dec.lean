/-!
Specification: reading a decimal number, written independently of the model's renderer.
-/
namespace Verif.Spec

/-- Is the character one of '0'..'9'? -/
def isDigit (c : Char) : Bool := '0' ≤ c && c ≤ '9'

/-- Value of a digit string, most significant digit first. -/
def digitsValue (s : List Char) : Nat :=
  s.foldl (fun n c => 10 * n + (c.toNat - 48)) 0

/-- Read a decimal number: at least one digit, only digits, no superfluous leading zero. -/
def readNat (s : List Char) : Option Nat :=
  if s = [] then none
  else if !s.all isDigit then none
  else if s.head? = some '0' && s.length > 1 then none
  else some (digitsValue s)

end Verif.Spec
