import Verif.Model.WriteSeq
import Verif.Spec.Dims
import Verif.Spec.Table
/-!
What the writers of rows, columns and blocks should do: item `i` of a row goes `i` columns to the right of the first
cell, item `i` of a column `i` rows below it, and so on; each item as if it had been written by itself.
-/
namespace Verif.Spec
open Verif
variable {Fmt : Type} [DecidableEq Fmt]

/-- An item for a cell. -/
structure Item where
  row : Nat
  col : Nat
  datum : Datum

/-- The items of a row. -/
def rowItems (row col : Nat) (data : List Datum) : List Item := data.mapIdx fun i d => ⟨row, col + i, d⟩

/-- The items of a column. -/
def columnItems (row col : Nat) (data : List Datum) : List Item := data.mapIdx fun i d => ⟨row + i, col, d⟩

/-- The items of a list of rows, one below the other. -/
def rowMatrixItems (row col : Nat) (data : List (List Datum)) : List Item :=
  (data.mapIdx fun i ds => rowItems (row + i) col ds).flatten

/-- The items of a list of columns, one beside the other. -/
def columnMatrixItems (row col : Nat) (data : List (List Datum)) : List Item :=
  (data.mapIdx fun i ds => columnItems row (col + i) ds).flatten

/-- Nothing is to be written: `None` or an empty text, without a format. -/
def Skipped (f : Option Fmt) (d : Datum) : Prop := f = none ∧ (d = .nothing ∨ d = .text [])

/-- The single call that an item stands for, if it stands for one. -/
def Item.call (f : Option Fmt) (p : Item) : Option (Op Fmt) :=
  match p.datum, f with
  | .num n, f => some (.number p.row p.col n f)
  | .date n, f => some (.dateTime p.row p.col n f)
  | .text t, f => some (.string p.row p.col t f)
  | .bool b, f => some (.boolean p.row p.col b f)
  | .formula fa, f => some (.formula p.row p.col fa f)
  | .nothing, some f => some (.blank p.row p.col f)
  | .nothing, none => none

/-- Why an item is refused. -/
def Item.refusal (cfg : Cfg) (f : Option Fmt) (p : Item) : Option Err := (p.call f).bind (Op.refusal cfg)

/-- The items are written one after the other. If none is refused, all of them are written as single calls in that
order. Otherwise the call returns the error of the first one that is refused; the items before it are written, and
nothing else (except that the dimensions of the sheet may have grown). -/
def Outcome (s : Sheet Fmt) (f : Option Fmt) (items : List Item) (r : SeqRes Fmt) : Prop :=
  ((∀ p ∈ items, p.refusal s.cfg f = none) ∧ r = .done (none, s.run (items.filterMap (Item.call f)))) ∨
  ∃ pre p post e d, items = pre ++ p :: post ∧ (∀ q ∈ pre, q.refusal s.cfg f = none) ∧ p.refusal s.cfg f = some e ∧
    r = .done (some e, { s.run (pre.filterMap (Item.call f)) with dims := d })

/-- What a text shows in a cell that showed `old`. -/
def writtenText (t : Str) (f : Option Fmt) (old : Content) : Content :=
  if t = [] then (if f.isSome then .blank else old) else .text t

/-- What an item shows in its cell, if that showed `old` before. -/
def Item.shows (cfg : Cfg) (f : Option Fmt) (p : Item) (old : Content) : Content :=
  match p.datum with
  | .num (.finite t) => .number t
  | .date (.finite t) => .dateTime t
  | .num .nan | .date .nan => writtenText cfg.nanText f old
  | .num .posInf | .date .posInf => writtenText cfg.infText f old
  | .num .negInf | .date .negInf => writtenText cfg.negInfText f old
  | .text t => writtenText t f old
  | .bool b => .boolean b
  | .formula fa => formulaContent cfg fa p.row p.col
  | .nothing => writtenText [] f old

end Verif.Spec
