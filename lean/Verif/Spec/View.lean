import Verif.Model.View
/-!
What the user asked for, read off the history of calls alone (newest call last).
-/
namespace Verif

/-- The calls made on sheet `i`. -/
def callsOn (i : Nat) (hist : List (Nat × ViewOp)) : List ViewOp :=
  (hist.filter fun p => p.1 = i).map Prod.snd

/-- Is the sheet left activated?  The newest call that says something about activation decides:
`set_active(b)`, or hiding the sheet (which de-activates it). -/
def leftActive (calls : List ViewOp) : Bool :=
  match calls.reverse.findSome? (fun
    | .setActive b => some b
    | .setHidden true | .setVeryHidden true => some false
    | _ => none) with
  | some b => b
  | none => false

/-- Is the sheet left selected?  `set_selected(b)`, activating (selects), hiding (de-selects). -/
def leftSelected (calls : List ViewOp) : Bool :=
  match calls.reverse.findSome? (fun
    | .setSelected b => some b
    | .setActive true => some true
    | .setHidden true | .setVeryHidden true => some false
    | _ => none) with
  | some b => b
  | none => false

/-- The state the sheet is left in: hidden by the newest hiding call unless a newer call
un-hides, selects or activates it. -/
def leftVisible (calls : List ViewOp) : Visible :=
  match calls.reverse.findSome? (fun
    | .setHidden true => some Visible.hidden
    | .setVeryHidden true => some Visible.veryHidden
    | .setHidden false | .setVeryHidden false | .setSelected true | .setActive true =>
      some Visible.default
    | _ => none) with
  | some v => v
  | none => .default

/-- `k` is the active tab of a workbook with `n` sheets: the last sheet left activated, or the
first sheet if there is none. -/
def IsActiveTab (active : Nat → Bool) (n k : Nat) : Prop :=
  (k < n ∧ active k = true ∧ ∀ j, k < j → j < n → active j = false) ∨
  ((∀ j, j < n → active j = false) ∧ k = 0)

end Verif
