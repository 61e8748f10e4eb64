/-!
`set_range_format_with_border` (worksheet.rs:10453-10492, 15652-15869).
-/
namespace Verif

/-- The `Format` fields touched by border drawing (`Border`, format.rs): style `σ` and colour `κ`
of each side; `rest` stands for every other property of the format (font, fill, alignment,
diagonal border, number format, ...). -/
structure BFormat (σ κ ρ : Type) where
  topStyle : σ
  topColor : κ
  bottomStyle : σ
  bottomColor : κ
  leftStyle : σ
  leftColor : κ
  rightStyle : σ
  rightColor : κ
  rest : ρ
deriving DecidableEq

/-- worksheet.rs `BorderPosition`. -/
inductive BorderPosition where
  | all | rowLeft | rowCenter | rowRight | colTop | colCenter | colBottom
  | topLeft | topCenter | topRight | centerLeft | centerCenter | centerRight
  | bottomLeft | bottomCenter | bottomRight
deriving DecidableEq

variable {σ κ ρ : Type}

/-- worksheet.rs:15805-15813: the positions that take the top side. -/
def BorderPosition.hasTop : BorderPosition → Bool
  | .all | .rowLeft | .rowCenter | .rowRight | .colTop | .topLeft | .topCenter | .topRight => true
  | _ => false

/-- worksheet.rs:15821-15829: the positions that take the bottom side. -/
def BorderPosition.hasBottom : BorderPosition → Bool
  | .all | .rowLeft | .rowCenter | .rowRight | .colBottom | .bottomLeft | .bottomCenter
  | .bottomRight => true
  | _ => false

/-- worksheet.rs:15837-15845: the positions that take the left side. -/
def BorderPosition.hasLeft : BorderPosition → Bool
  | .all | .rowLeft | .colTop | .colCenter | .colBottom | .topLeft | .centerLeft | .bottomLeft => true
  | _ => false

/-- worksheet.rs:15853-15861: the positions that take the right side. -/
def BorderPosition.hasRight : BorderPosition → Bool
  | .all | .rowRight | .colTop | .colCenter | .colBottom | .topRight | .centerRight
  | .bottomRight => true
  | _ => false

/-- worksheet.rs:15797-15869 `combined_border_format`. -/
def combinedBorderFormat (cell border : BFormat σ κ ρ) (p : BorderPosition) : BFormat σ κ ρ :=
  let f := if p.hasTop then
    { cell with topStyle := border.topStyle, topColor := border.topColor } else cell
  let f := if p.hasBottom then
    { f with bottomStyle := border.bottomStyle, bottomColor := border.bottomColor } else f
  let f := if p.hasLeft then
    { f with leftStyle := border.leftStyle, leftColor := border.leftColor } else f
  if p.hasRight then
    { f with rightStyle := border.rightStyle, rightColor := border.rightColor } else f

/-- worksheet.rs:15766-15788, 15684-15690, 15715-15721, 10474-10489: the position class of a cell
of the range. -/
def borderPos (r1 c1 r2 c2 row col : Nat) : BorderPosition :=
  if r1 = r2 ∧ c1 = c2 then .all
  else if r1 = r2 then
    if col = c1 then .rowLeft else if col = c2 then .rowRight else .rowCenter
  else if c1 = c2 then
    if row = r1 then .colTop else if row = r2 then .colBottom else .colCenter
  else if row = r1 then
    if col = c1 then .topLeft else if col = c2 then .topRight else .topCenter
  else if row = r2 then
    if col = c1 then .bottomLeft else if col = c2 then .bottomRight else .bottomCenter
  else if col = c1 then .centerLeft
  else if col = c2 then .centerRight
  else .centerCenter

/-- `a..=b`. -/
def rangeIncl (a b : Nat) : List Nat := (List.range (b + 1 - a)).map (a + ·)

/-- worksheet.rs:10453-10492 `set_range_format_with_border`: the `set_cell_format` calls made, in
order (row, column, format).  The single-row and single-column variants iterate over one
dimension only (15683, 15714). `none` is the limit or order error. -/
def rangeBorderCalls (r1 c1 r2 c2 : Nat) (cell border : BFormat σ κ ρ) :
    Option (List (Nat × Nat × BFormat σ κ ρ)) :=
  if r1 ≥ 1048576 ∨ c1 ≥ 16384 ∨ r2 ≥ 1048576 ∨ c2 ≥ 16384 then none
  else if r1 > r2 ∨ c1 > c2 then none
  else if r1 = r2 ∧ c1 = c2 then some [(r1, c1, combinedBorderFormat cell border .all)]
  else if r1 = r2 then
    some ((rangeIncl c1 c2).map fun col =>
      (r1, col, combinedBorderFormat cell border (borderPos r1 c1 r2 c2 r1 col)))
  else if c1 = c2 then
    some ((rangeIncl r1 r2).map fun row =>
      (row, c1, combinedBorderFormat cell border (borderPos r1 c1 r2 c2 row c1)))
  else
    some ((rangeIncl r1 r2).flatMap fun row => (rangeIncl c1 c2).map fun col =>
      (row, col, combinedBorderFormat cell border (borderPos r1 c1 r2 c2 row col)))

end Verif
