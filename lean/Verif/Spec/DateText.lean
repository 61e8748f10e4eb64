import Verif.Model.DateText
import Verif.Spec.DateTime
import Verif.Spec.Dec
/-!
How a date is written: the forms that the documentation of `parse_from_str` gives, and RFC 3339.
-/
namespace Verif.Spec
open Verif

/-- A number below 100 with two digits. -/
def twoDigits (n : Nat) : List Char := [Char.ofNat (48 + n / 10), Char.ofNat (48 + n % 10)]

/-- What is assumed of `f64`: whole seconds are read, compared and shown as one expects, and no
number is read from an empty text. -/
structure FloatSane {F : Type} (ops : FloatOps F) : Prop where
  parse : ∀ n, n < 60 → ops.parse (twoDigits n) = some (ops.ofNat n)
  show2 : ∀ n, n < 60 → ops.show2 (ops.ofNat n) = twoDigits n
  empty : ops.parse [] = none
  above : ∀ n, n < 60 → ops.above (ops.ofNat n) = false

/-- The digits of a number, maybe with zeros in front. -/
def IsNumber (s : List Char) (n : Nat) : Prop := s ≠ [] ∧ s.all isDigit = true ∧ digitsValue s = n

/-- Seconds: a number, maybe with a decimal point in it, whose value is `x`. -/
def IsSeconds {F : Type} (ops : FloatOps F) (s : List Char) (x : F) : Prop :=
  (s.all fun c => isDigit c || c = '.') = true ∧ s ≠ [] ∧ ops.parse s = some x

/-- A date as `yyyy-mm-dd`. -/
def WritesDate (s : List Char) (d : YMD) : Prop :=
  ∃ y m dd, IsNumber y d.year ∧ IsNumber m d.month ∧ IsNumber dd d.day ∧ s = y ++ '-' :: m ++ '-' :: dd

/-- A time as `hh:mm`, `hh:mm:ss` or `hh:mm:ss.sss`. -/
def WritesTime {F : Type} (ops : FloatOps F) (s : List Char) (hour min : Nat) (sec : F) : Prop :=
  ∃ h m, IsNumber h hour ∧ IsNumber m min ∧
    ((s = h ++ ':' :: m ∧ sec = ops.ofNat 0) ∨ ∃ x, IsSeconds ops x sec ∧ s = h ++ ':' :: m ++ ':' :: x)

/-- Only white space. -/
def Spaces (s : List Char) : Prop := s.all isUniSpace = true

/-- A date, a time, or both with a `T` or a space between them, and perhaps a `Z`; perhaps in white space. -/
inductive Writes {F : Type} (ops : FloatOps F) : List Char → Option YMD → Nat → Nat → F → Prop
  | date (pre s post : List Char) (d : YMD) : Spaces pre → Spaces post → WritesDate s d →
      Writes ops (pre ++ s ++ post) (some d) 0 0 (ops.ofNat 0)
  | time (pre s post : List Char) (h m : Nat) (x : F) : Spaces pre → Spaces post → WritesTime ops s h m x →
      Writes ops (pre ++ s ++ post) none h m x
  | both (pre s t z post : List Char) (sep : Char) (d : YMD) (h m : Nat) (x : F) : Spaces pre → Spaces post → WritesDate s d →
      WritesTime ops t h m x → (sep = 'T' ∨ sep = ' ') → (z = [] ∨ z = ['Z']) →
      Writes ops (pre ++ (s ++ sep :: t ++ z) ++ post) (some d) h m x

/-- The dates of Excel: those of the calendar from 1899-12-31 to 9999-12-31, and 1900-02-29. -/
def ExcelDate (d : YMD) : Prop := (∃ n, d = times tomorrow n ⟨1899, 12, 31⟩ ∧ d.year ≤ 9999) ∨ d = ⟨1900, 2, 29⟩

/-- Two digits. -/
def readTwo : List Char → Option (Nat × List Char)
  | a :: b :: s => if isDigit a ∧ isDigit b then some ((a.toNat - 48) * 10 + (b.toNat - 48), s) else none
  | _ => none

/-- A given character. -/
def skip (c : Char) : List Char → Option (List Char)
  | x :: s => if x = c then some s else none
  | [] => none

/-- `YYYY-MM-DDThh:mm:ssZ`, the form of W3CDTF and RFC 3339 for whole seconds: a day of the calendar and a time of the
day. -/
def readW3C (s : List Char) : Option (YMD × Nat × Nat × Nat) := do
  let (c, s) ← readTwo s
  let (y, s) ← readTwo s
  let s ← skip '-' s
  let (m, s) ← readTwo s
  let s ← skip '-' s
  let (d, s) ← readTwo s
  let s ← skip 'T' s
  let (hh, s) ← readTwo s
  let s ← skip ':' s
  let (mm, s) ← readTwo s
  let s ← skip ':' s
  let (ss, s) ← readTwo s
  let s ← skip 'Z' s
  if s = [] ∧ 1 ≤ m ∧ m ≤ 12 ∧ 1 ≤ d ∧ d ≤ daysIn (c * 100 + y) m ∧ hh < 24 ∧ mm < 60 ∧ ss < 60 then
    some (⟨c * 100 + y, m, d⟩, hh, mm, ss)
  else none

end Verif.Spec
