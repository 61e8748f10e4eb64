import Verif.Model.Names
import Verif.Spec.Ref
/-!
Independent specification of sheet names in references and of legal sheet names.
-/
namespace Verif.Spec

/-- Read the inside of a quoted name up to the closing apostrophe: two apostrophes are one, a
single one ends the name. -/
def readQuoted : List Char → Option (List Char × List Char)
  | '\'' :: '\'' :: rest => (readQuoted rest).map fun p => ('\'' :: p.1, p.2)
  | '\'' :: rest => some ([], rest)
  | c :: rest => (readQuoted rest).map fun p => (c :: p.1, p.2)
  | [] => none

/-- Read `Name!rest` or `'Na''me'!rest` as the sheet name and what follows the exclamation mark. -/
def readSheetRef (s : List Char) : Option (List Char × List Char) :=
  match s with
  | '\'' :: rest =>
    match readQuoted rest with
    | some (name, '!' :: rest) => some (name, rest)
    | _ => none
  | s =>
    match s.dropWhile (· ≠ '!') with
    | _ :: rest => some (s.takeWhile (· ≠ '!'), rest)
    | [] => none

/-- The rules for worksheet names that Excel documents. -/
structure LegalName (s : List Char) : Prop where
  notBlank : s ≠ []
  short : s.length ≤ 31
  chars : ∀ c ∈ s, c ≠ '*' ∧ c ≠ '?' ∧ c ≠ ':' ∧ c ≠ '[' ∧ c ≠ ']' ∧ c ≠ '\\' ∧ c ≠ '/'
  first : s.head? ≠ some '\''
  last : s.getLast? ≠ some '\''

/-- ASCII upper case of a name. -/
def asciiUpper (s : List Char) : List Char := s.map Char.toUpper

/-- Does the name look like a cell of the sheet, as in `=A1` (any case)? -/
def LooksLikeA1 (s : List Char) : Prop :=
  ∃ r c, readA1 (asciiUpper s) = some (r, c) ∧ r < 1048576 ∧ c < 16384

/-- Does the name start like an R1C1 reference (`R5...`, `C7...`, `RC2...`), or is it `R`, `C`, `RC`? -/
def LooksLikeRC (s : List Char) : Prop :=
  asciiUpper s = ['R'] ∨ asciiUpper s = ['C'] ∨ asciiUpper s = ['R', 'C'] ∨
  ∃ ds rest n, readNat ds = some n ∧ 0 < n ∧ (∀ c, rest.head? = some c → isDigit c = false) ∧
    ((asciiUpper s = 'R' :: ds ++ rest ∧ n ≤ 1048576) ∨
     (asciiUpper s = 'C' :: ds ++ rest ∧ n ≤ 16384) ∨
     (asciiUpper s = 'R' :: 'C' :: ds ++ rest ∧ n ≤ 16384))

end Verif.Spec

namespace Verif

/-- What is assumed about the Unicode tables: on ASCII they are the usual functions, the only
characters below `A` that upper-casing yields are unchanged ones, and upper-casing never removes a
character. -/
structure Unicode.Sane (U : Unicode) : Prop where
  alnum_ascii : ∀ c : Char, c.toNat < 128 → U.alnum c = c.isAlphanum
  upper_ascii : ∀ c : Char, c.toNat < 128 → U.upper c = [c.toUpper]
  upper_low : ∀ c d : Char, d ∈ U.upper c → d.toNat < 65 → d = c
  upper_ne : ∀ c : Char, U.upper c ≠ []
  lower_ascii : ∀ s : Str, (∀ c ∈ s, c.toNat < 128) → U.lower s = s.map Char.toLower

end Verif
