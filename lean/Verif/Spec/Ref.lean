import Verif.Spec.Dec
/-!
Specification of A1 references, independent of how the library computes them:
a reader for `A1`, `$A$1`, `A1:B2` and the "odometer" that lists column names in order.
-/
namespace Verif.Spec

/-- Upper case ASCII letters. -/
def isLetter (c : Char) : Bool := 'A' ≤ c && c ≤ 'Z'

/-- The next column name in Excel's order, on the *reversed* name: increment the last
letter; `Z` becomes `A` with a carry; a carry out of the front prepends `A`. -/
def succRev : List Char → List Char
  | [] => ['A']
  | c :: cs => if c = 'Z' then 'A' :: succRev cs else Char.ofNat (c.toNat + 1) :: cs

/-- The next column name: `A → B`, `Z → AA`, `AZ → BA`, `ZZ → AAA`. -/
def succName (s : List Char) : List Char := (succRev s.reverse).reverse

/-- The column name Excel shows for the zero-based column `n`: start at `A`, step `n` times. -/
def colNameSpec : Nat → List Char
  | 0 => ['A']
  | n + 1 => succName (colNameSpec n)

/-- Zero-based index of a column name (bijective base 26). -/
def readCol (s : List Char) : Option Nat :=
  if s = [] || !s.all isLetter then none
  else some (s.foldl (fun n c => 26 * n + (c.toNat - 64)) 0 - 1)

/-- Read a one-based row number as a zero-based row. -/
def readRow (s : List Char) : Option Nat :=
  match readNat s with
  | some (n + 1) => some n
  | _ => none

/-- Read a relative reference such as `AB12` as (row, column). -/
def readA1 (s : List Char) : Option (Nat × Nat) :=
  match readCol (s.takeWhile isLetter), readRow (s.dropWhile isLetter) with
  | some c, some r => some (r, c)
  | _, _ => none

/-- Read an absolute reference such as `$AB$12` as (row, column). -/
def readA1Abs (s : List Char) : Option (Nat × Nat) :=
  match s with
  | '$' :: s =>
    match s.dropWhile isLetter with
    | '$' :: ds =>
      match readCol (s.takeWhile isLetter), readRow ds with
      | some c, some r => some (r, c)
      | _, _ => none
    | _ => none
  | _ => none

/-- Read `X` as the one-cell range and `X:Y` as the range from `X` to `Y`. -/
def readRangeWith (readCell : List Char → Option (Nat × Nat)) (s : List Char) :
    Option ((Nat × Nat) × (Nat × Nat)) :=
  match s.dropWhile (· ≠ ':') with
  | [] => (readCell s).map fun c => (c, c)
  | _ :: rest =>
    match readCell (s.takeWhile (· ≠ ':')), readCell rest with
    | some a, some b => some (a, b)
    | _, _ => none

def readRange := readRangeWith readA1
def readRangeAbs := readRangeWith readA1Abs

end Verif.Spec
