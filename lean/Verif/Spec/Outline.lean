import Verif.Model.Outline
/-! Specification of outlines on histories of accepted calls. -/
namespace Verif.Spec

/-- The call groups line `i`. -/
def OutlineOp.covers (i : Nat) : OutlineOp → Bool
  | .group a b | .groupCollapsed a b => decide (a ≤ i) && decide (i ≤ b)
  | _ => false

/-- What the call says about line `i` being hidden, if anything. -/
def OutlineOp.hides (i : Nat) : OutlineOp → Option Bool
  | .groupCollapsed a b => if a ≤ i ∧ i ≤ b then some true else none
  | .hide j => if j = i then some true else none
  | .unhide j => if j = i then some false else none
  | _ => none

/-- The call puts the collapsed marker (the `+` symbol) at line `i`. -/
def OutlineOp.marks (i : Nat) : OutlineOp → Bool
  | .groupCollapsed _ b => decide (i = b + 1)
  | _ => false

/-- The last statement about `i` in the history. -/
def lastHides (i : Nat) (ops : List OutlineOp) : Bool :=
  (ops.filterMap (OutlineOp.hides i)).getLast?.getD false

/-- All calls of the history are accepted. -/
def AllOk (limit : Nat) (ops : List OutlineOp) : Prop :=
  ∀ pre o post, ops = pre ++ o :: post → ((Outline.new.run limit pre).exec limit o).2 = none

end Verif.Spec
