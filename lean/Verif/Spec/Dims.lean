import Verif.Spec.Book
/-!
Specification of refused calls, of the bounding box of a sheet, and of row spans.
-/
namespace Verif
section
variable {Fmt : Type}

/-- The text a number is stored as when it is not finite. -/
def F64.textIn (cfg : Cfg) : F64 → Option Str
  | .finite _ => none
  | .nan => some cfg.nanText
  | .posInf => some cfg.infText
  | .negInf => some cfg.negInfText

/-- A string write is refused outside the grid, or when it is longer than 32767 characters; an
empty string without a format is ignored wherever it is (finding F5). -/
def refuseString (r c : Nat) (s : Str) (f : Option Fmt) : Option Err :=
  if s = [] ∧ f.isNone then none
  else if !inGrid r c then some .rowColumnLimit
  else if s.length > 32767 then some .maxStringLength
  else none

/-- A number write is refused outside the grid, or if the replacement text for a NaN or
infinity is too long. -/
def refuseNumber (cfg : Cfg) (r c : Nat) (n : F64) : Option Err :=
  if !inGrid r c then some .rowColumnLimit
  else match n.textIn cfg with
    | some t => if t.length > 32767 then some .maxStringLength else none
    | none => none

/-- A rectangle is refused if a corner is outside the grid, or if the corners are out of
order. -/
def refuseRange (r1 c1 r2 c2 : Nat) : Option Err :=
  if !inGrid r1 c1 || !inGrid r2 c2 then some .rowColumnLimit
  else if r1 > r2 || c1 > c2 then some .rowColumnOrder
  else none

/-- Which error a call returns; it depends only on the arguments. -/
def Op.refusal (cfg : Cfg) : Op Fmt → Option Err
  | .number r c n _ | .dateTime r c n _ => refuseNumber cfg r c n
  | .string r c s f => refuseString r c s f
  | .rich r c s _ f => refuseString r c s f
  | .formula r c _ _ | .blank r c _ | .boolean r c _ _ | .cellFormat r c _ =>
    if !inGrid r c then some .rowColumnLimit else none
  | .arrayFormula r1 c1 r2 c2 _ _ _ => refuseRange r1 c1 r2 c2
  | .rangeFormat r1 c1 r2 c2 _ => refuseRange r1 c1 r2 c2
  | .clearCell .. | .clearFormat .. => none
  | .rowFormat r _ | .rowHeight r _ | .rowHidden r =>
    if r < 1048576 then none else some .rowColumnLimit
  | .columnFormat c _ => if c < 16384 then none else some .rowColumnLimit
  | .note r c tooLong =>
    if !inGrid r c then some .rowColumnLimit
    else if tooLong then some .maxStringLength else none

/-- The one cell a single-cell call is about. -/
def Op.target : Op Fmt → Option (Nat × Nat)
  | .number r c _ _ | .dateTime r c _ _ | .string r c _ _ | .rich r c _ _ _ | .formula r c _ _
  | .blank r c _ | .boolean r c _ _ | .cellFormat r c _ | .note r c _ => some (r, c)
  | _ => none

/-- The cells an accepted call puts something in (or a note on). -/
def Op.touches (r c : Nat) : Op Fmt → Prop
  | .string r' c' s f => (r = r' ∧ c = c') ∧ ¬ (s = [] ∧ f = none)
  | .rich r' c' s _ f => (r = r' ∧ c = c') ∧ ¬ (s = [] ∧ f = none)
  | .number r' c' _ _ | .dateTime r' c' _ _ | .formula r' c' _ _ | .blank r' c' _
  | .boolean r' c' _ _ | .cellFormat r' c' _ | .note r' c' _ => r = r' ∧ c = c'
  | .arrayFormula r1 c1 r2 c2 _ _ _ => r1 ≤ r ∧ r ≤ r2 ∧ c1 ≤ c ∧ c ≤ c2
  | _ => False

/-- The topmost row that an accepted call touches. -/
def Op.topRow : Op Fmt → Option Nat
  | .string r _ s f => if s = [] ∧ f.isNone then none else some r
  | .rich r _ s _ f => if s = [] ∧ f.isNone then none else some r
  | .number r _ _ _ | .dateTime r _ _ _ | .formula r _ _ _ | .blank r _ _
  | .boolean r _ _ _ | .cellFormat r _ _ | .note r _ _ => some r
  | .arrayFormula r1 _ _ _ _ _ _ => some r1
  | _ => none

/-- Calls from the top down, as a worksheet in constant memory wants them. -/
def TopDown (ops : List (Op Fmt)) : Prop := (ops.filterMap Op.topRow).Pairwise (· ≤ ·)

/-- Calls that work on cells, as opposed to whole rows and columns, or on ranges of formats. -/
def Op.isCellCall : Op Fmt → Bool
  | .rowFormat .. | .columnFormat .. | .rowHeight .. | .rowHidden .. | .rangeFormat .. => false
  | _ => true

/-- `(r1,c1)-(r2,c2)` is the smallest rectangle containing all cells of `P`. -/
structure IsBox (P : Nat → Nat → Prop) (r1 c1 r2 c2 : Nat) : Prop where
  inside : ∀ r c, P r c → r1 ≤ r ∧ r ≤ r2 ∧ c1 ≤ c ∧ c ≤ c2
  top : ∃ c, P r1 c
  bottom : ∃ c, P r2 c
  left : ∃ r, P r c1
  right : ∃ r, P r c2

end
end Verif
