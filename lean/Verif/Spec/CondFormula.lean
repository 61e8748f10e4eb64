import Verif.Spec.FormulaLang
import Verif.Spec.Cond
/-!
What the rules of conditional formats on texts, dates, blanks and errors mean (C56), independently of their formulas.
-/
namespace Verif.Spec

/-- A worksheet as seen by the formula of a rule at the cell in row `r` and column `c`: the references of the formula are
written for the first cell of the range and move with the cell. -/
def FEnv.seenAt (e : FEnv) (first : Nat × Nat) (r c : Nat) : FEnv :=
  { e with cell := fun i j => e.cell (i + r - first.1) (j + c - first.2) }

/-- A rule with formula `f` on a range with the given first cell applies to the cell in row `r` and column `c`. -/
def applies (e : FEnv) (first : Nat × Nat) (f : List Char) (r c : Nat) : Bool :=
  match evalFormula (e.seenAt first r c) f with
  | some v => v.holds
  | none => false

/-- The formula of a rule. -/
def RuleSeen.formula : RuleSeen → Option (List Char)
  | .blanks _ f => some f
  | .errors _ f => some f
  | .text _ _ f => some f
  | .period _ f => some f
  | _ => none

/-- What a text rule says of a text, whatever the case of the letters. -/
def textRuleMeans (lower : Char → Char) : CondText → List Char → Prop
  | .contains t, s => t.map lower <:+: s.map lower
  | .doesNotContain t, s => ¬ t.map lower <:+: s.map lower
  | .beginsWith t, s => t.map lower <+: s.map lower
  | .endsWith t, s => t.map lower <:+ s.map lower

/-- The week of a serial number, from Sunday to Saturday. (Serial number 1 is a Sunday.) -/
def weekOf (n : Int) : Int := (n - 1) / 7

/-- The months counted from year 0. -/
def monthsOf (n : Int) : Nat := 12 * (serialYM n).1 + (serialYM n).2

/-- What a date rule says of a day. -/
def dateRuleMeans : CondDate → (today day : Int) → Prop
  | .yesterday, t, d => d = t - 1
  | .today, t, d => d = t
  | .tomorrow, t, d => d = t + 1
  | .last7Days, t, d => t - 7 < d ∧ d ≤ t
  | .lastWeek, t, d => weekOf d + 1 = weekOf t
  | .thisWeek, t, d => weekOf d = weekOf t
  | .nextWeek, t, d => weekOf d = weekOf t + 1
  | .lastMonth, t, d => monthsOf d + 1 = monthsOf t
  | .thisMonth, t, d => monthsOf d = monthsOf t
  | .nextMonth, t, d => monthsOf d = monthsOf t + 1

/-- A cell that is blank, or text with nothing but blanks. -/
def Blank (e : FEnv) (v : FVal) : Prop := ∃ s, v.toText e = some s ∧ ∀ c ∈ s, c = ' '

/-- The values of a rule on the value of cells, as given. -/
def valuesGiven : CondCellRule → List CondValue
  | .cmp _ v => [v]
  | .between a b => [a, b]
  | .notBetween a b => [a, b]

/-- The rest of a text in pieces, after the start `acc` of a piece. -/
def piecesFrom (sep : Char → Bool) (acc : List Char) : List Char → List (List Char)
  | [] => if acc = [] then [] else [acc]
  | c :: cs =>
    if sep c then (if acc = [] then piecesFrom sep [] cs else acc :: piecesFrom sep [] cs)
    else piecesFrom sep (acc ++ [c]) cs

/-- A text in pieces: what is between the separators, without empty pieces. -/
def pieces (sep : Char → Bool) (t : List Char) : List (List Char) := piecesFrom sep [] t

/-- The ranges of a text: separated by commas or blanks, with or without `$`. -/
def rangesOfText (t : List Char) : List (Option ((Nat × Nat) × (Nat × Nat))) :=
  (pieces (fun c => c = ',' || c = ' ') t).map fun p => readRange (p.filter (· ≠ '$'))

/-- The ranges in a file: separated by blanks. -/
def rangesOfSqref (t : List Char) : List (Option ((Nat × Nat) × (Nat × Nat))) :=
  (pieces (· = ' ') t).map readRange

end Verif.Spec
