/-!
Object anchoring: `position_object_pixels` (worksheet.rs:16622-16739), `column_pixel_width`
(16743-16765) and `row_pixel_height` (16769-16784).

Simplifications: floating point values are exact.  The object's width and height, which may be
fractional, are given in units of `1/u` pixel (`u` arbitrary); column widths and row heights
in thousandths of a character / point.  The `loop`s have a step bound `fuel`; `none` means "not
finished within the bound".
-/
namespace Verif

/-- `ObjectMovement` as far as it matters here: is it `MoveAndSizeWithCellsAfter`? -/
abbrev MoveAfter := Bool

/-- The fields of `ColOptions` / `RowOptions` used for positioning: size in thousandths. -/
structure LineSize where
  milli : Nat
  hidden : Bool
deriving DecidableEq, Repr

/-- worksheet.rs:16743-16765 `column_pixel_width` (width in thousandths of a character). -/
def columnPx (changed : Nat → Option LineSize) (after : MoveAfter) (col : Nat) : Nat :=
  match changed col with
  | some o =>
    if o.hidden && !after then 0
    else if o.milli < 1000 then (2 * (o.milli * 12) + 1000) / 2000
    else (2 * (o.milli * 7) + 1000) / 2000 + 5
  | none => 64

/-- worksheet.rs:16769-16784 `row_pixel_height` (heights in thousandths of a point). -/
def rowPx (changed : Nat → Option LineSize) (default : Nat) (after : MoveAfter) (row : Nat) : Nat :=
  match changed row with
  | some o => if o.hidden && !after then 0 else o.milli * 4 / 3000
  | none => default * 4 / 3000

/-- worksheet.rs:16657-16665, 16668-16676, 16687-16695, 16698-16706: the loop that moves an offset
over cells. -/
def walk (size : Nat → Nat) : Nat → Nat → Nat → Option (Nat × Nat)
  | 0, _, _ => none
  | fuel + 1, i, off => if off ≥ size i then walk size fuel (i + 1) (off - size i) else some (i, off)

/-- worksheet.rs:16645-16648, 16651-16654: the absolute position of the object. -/
def absPos (size : Nat → Nat) (start off : Nat) : Nat :=
  (List.range start).foldl (fun a i => a + size i) 0 + off

/-- The anchors along one axis. -/
structure Axis where
  absolute : Nat
  fromCell : Nat
  fromOff : Nat
  toCell : Nat
  /-- in units of `1/u` pixel -/
  toOff : Nat
deriving DecidableEq, Repr

/-- worksheet.rs:16626-16739, one axis: `start` cell and pixel offset given by the user, `extent` =
width (height) of the object in `1/u` pixels. -/
def positionAxis (size : Nat → Nat) (u fuel start off extent : Nat) : Option Axis := do
  let (c1, x1) ← walk size fuel start off
  let (c2, x2) ← walk (fun i => u * size i) fuel c1 (extent + u * x1)
  return ⟨absPos size start off, c1, x1, c2, x2⟩

end Verif
