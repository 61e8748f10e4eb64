/-!
Decimal rendering of unsigned integers, as done by Rust's `format!("{}", n)`
(used at utility.rs:145, utility.rs:171 and throughout the XML writers).
Strings are `List Char`.
-/
namespace Verif

abbrev Str := List Char

/-- The ASCII digit character of `d < 10`. Models the digit table used by Rust's
`Display` for unsigned integers (standard library, not in /repo). -/
def digitChar (d : Nat) : Char := Char.ofNat (48 + d)

/-- Rust `Display` of an unsigned integer: no sign, no leading zeros
(used by /repo/src/utility.rs:145, 171 etc.). -/
def showNat (n : Nat) : Str :=
  if _h : n < 10 then [digitChar n]
  else showNat (n / 10) ++ [digitChar (n % 10)]
termination_by n
decreasing_by omega

end Verif
