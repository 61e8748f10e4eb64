import Verif.Model.Table
import Verif.Spec.Book
import Verif.Lemmas.Sheet
/-!
What a table asks of its worksheet and of its columns, in words of the API.
-/
namespace Verif.Spec
variable {Fmt : Type}

/-- The name of column `i` of a table: the given name, or else the text already in the header cell, or else
`Column1`, `Column2`, ... -/
def columnName (given : Str) (headerText : Option Str) (i : Nat) : Str :=
  if given ≠ [] then given
  else match headerText with
    | some t => t
    | none => "Column".toList ++ showNat (i + 1)

/-- The text of a cell, if it is a plain text. -/
def plainText : Content → Option Str
  | .text t => some t
  | _ => none

/-- The name given to column `i`, empty if the user gave none. -/
def givenName (t : Table Fmt) (i : Nat) : Str := ((t.columns[i]?).map TableCol.name).getD []

/-- The name column `i` of a table is to have: the header cells are looked at only if there is a header row. -/
def wantedName (s : TSheet Fmt) (d : Dims) (t : Table Fmt) (i : Nat) : Str :=
  columnName (givenName t i)
    (if t.showHeaderRow then
      (cellAt s.sheet.table d.firstRow (d.firstCol + i)).bind fun x => plainText x.content
     else none) i

/-- The names the columns of a table are to have. -/
def wantedNames (s : TSheet Fmt) (d : Dims) (t : Table Fmt) : List Str :=
  (List.range (d.lastCol - d.firstCol + 1)).map (wantedName s d t)

/-- What a written formula shows. -/
def formulaContent (cfg : Cfg) (f : FormulaArg) (r c : Nat) : Content :=
  if f.dynamic then .array f.text (resultOf cfg f) true (cellRange r c r c) else .formula f.text (resultOf cfg f)

/-- What a cell shows once a table with the columns of `t` lies over `d`, if it showed `old` before. -/
def tableShows (cfg : Cfg) (t : Table Fmt) (d : Dims) (r c : Nat) (old : Content) : Content :=
  if c < d.firstCol then old
  else match t.columns[c - d.firstCol]? with
  | none => old
  | some col =>
    if t.showHeaderRow = true ∧ r = d.firstRow then
      if t.isSerde = true then old
      else if col.name ≠ [] then .text col.name
      else if col.headerFormat.isSome then .blank else old
    else if t.showTotalRow = true ∧ r = d.lastRow then
      if col.totalLabel ≠ [] then .text col.totalLabel
      else if col.totalFunction ≠ .none then formulaContent cfg col.totalFormula r c
      else old
    else if d.firstRow ≤ r ∧ r ≤ d.lastRow then
      match col.formula with
      | some f => formulaContent cfg f r c
      | none => old
    else old

end Verif.Spec
