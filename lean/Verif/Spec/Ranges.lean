import Verif.Model.Sheet
import Verif.Spec.Ref
import Verif.Spec.Style
/-!
Rectangles of cells, as a user of merged ranges and tables sees them.
-/
namespace Verif.Spec
open Verif

/-- Cell `(r, c)` belongs to the rectangle. -/
def covers (d : Dims) (r c : Nat) : Prop :=
  d.firstRow ≤ r ∧ r ≤ d.lastRow ∧ d.firstCol ≤ c ∧ c ≤ d.lastCol

instance (d : Dims) (r c : Nat) : Decidable (covers d r c) := by unfold covers; infer_instance

/-- Two rectangles have no cell in common. -/
def apart (a b : Dims) : Prop := ∀ r c, ¬ (covers a r c ∧ covers b r c)

/-- The corners are in order and inside Excel's grid. -/
def rectOk (d : Dims) : Prop :=
  d.firstRow ≤ d.lastRow ∧ d.firstCol ≤ d.lastCol ∧ d.lastRow < 1048576 ∧ d.lastCol < 16384

/-- A rectangle of more than one cell. -/
def severalCells (d : Dims) : Prop := d.firstRow ≠ d.lastRow ∨ d.firstCol ≠ d.lastCol

/-- A reader of a `mergeCells` element: the number it announces and the rectangles it lists. -/
def readMergeCells (as : NodeAttrs) (kids : List Node) : Option (Nat × List Dims) := do
  let n ← attrNat "count".toList as
  let cs ← childrenAll "mergeCell".toList kids
  let ds ← cs.mapM fun k => do
    let ref ← k.1.lookup "ref".toList
    let q ← readRange ref
    some (⟨q.1.1, q.1.2, q.2.1, q.2.2⟩ : Dims)
  some (n, ds)

/-- The calls that write the cells of a merged range: the text in the upper left cell, formatted blanks
in the others. -/
def mergedCellWrites {Fmt : Type} (d : Dims) (str : List Char) (f : Fmt) : List (Op Fmt) :=
  .string d.firstRow d.firstCol str (some f) ::
    ((List.range' (d.firstCol + 1) (d.lastCol - d.firstCol)).map fun c => .blank d.firstRow c f) ++
    (List.range' (d.firstRow + 1) (d.lastRow - d.firstRow)).flatMap fun r =>
      (List.range' d.firstCol (d.lastCol + 1 - d.firstCol)).map fun c => .blank r c f

end Verif.Spec
