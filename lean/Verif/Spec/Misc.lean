/-!
Independent specifications for the password hash, page breaks and validation lists.
-/
namespace Verif.Spec

/-- ECMA-376 legacy verifier, closed form: byte number `i` (from 0) contributes its value rotated
left by `i + 1` places in a 15-bit word; all contributions are xor-ed. -/
def rotXor : Nat → List (BitVec 8) → BitVec 15
  | _, [] => 0
  | k, b :: bs => (b.setWidth 15).rotateLeft k ^^^ rotXor (k + 1) bs

/-- ECMA-376 legacy verifier: the xor above, the length and the constant 0xCE4B. -/
def legacyHash (bytes : List (BitVec 8)) : BitVec 16 :=
  0xCE4B#16 ^^^ BitVec.ofNat 16 bytes.length ^^^ (rotXor 1 bytes).setWidth 16

/-- Value of a hexadecimal digit. -/
def hexVal (c : Char) : Option Nat :=
  if '0' ≤ c ∧ c ≤ '9' then some (c.toNat - 48)
  else if 'A' ≤ c ∧ c ≤ 'F' then some (c.toNat - 55) else none

/-- Reader of a hexadecimal number. -/
def readHex (s : List Char) : Option Nat :=
  s.foldlM (fun n c => (hexVal c).map (fun d => 16 * n + d)) 0

/-- `uniq` lists every element of `l` exactly once, in any order (what iterating a hash set
built from `l` gives). -/
def IsSetOf (uniq l : List Nat) : Prop := uniq.Nodup ∧ ∀ x, x ∈ uniq ↔ x ∈ l

/-- Reader of an Excel string literal: opening quote, doubled quotes stand for one, closing quote
at the very end. -/
def readLitBody : List Char → Option (List Char)
  | '"' :: '"' :: rest => (readLitBody rest).map ('"' :: ·)
  | ['"'] => some []
  | '"' :: _ => none
  | c :: rest => (readLitBody rest).map (c :: ·)
  | [] => none

def readLit : List Char → Option (List Char)
  | '"' :: rest => readLitBody rest
  | _ => none

/-- Split at commas. -/
def splitComma : List Char → List (List Char)
  | [] => [[]]
  | c :: cs =>
    if c = ',' then [] :: splitComma cs
    else match splitComma cs with
      | [] => [[c]]
      | x :: xs => (c :: x) :: xs

/-- The items a spreadsheet application shows for a list-type validation formula. -/
def readList (f : List Char) : Option (List (List Char)) := (readLit f).map splitComma

end Verif.Spec
