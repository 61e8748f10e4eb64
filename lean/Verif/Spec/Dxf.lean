import Verif.Spec.Style
/-!
How a reader of a styles part sees a differential format (`dxf`, ECMA-376 part 1, 18.8.14/15), the kind
used by tables and conditional formats: it says what to change about a cell, and what it does not
mention stays. The documentation of `ConditionalFormat` lists what such a format cannot change: font
name and size, superscript, diagonal borders, alignment and protection.
-/
namespace Verif.Spec
open Verif

/-- What a differential format changes. `none` for an underline, colour or number format: unchanged. -/
structure DxfSeen where
  bold : Bool
  italic : Bool
  strike : Bool
  underline : Option Text
  color : Option ColorSeen
  num : Option (NumSeen × Text)
  fill : FillSeen
  left : SideSeen
  right : SideSeen
  top : SideSeen
  bottom : SideSeen
  checkbox : Bool
deriving DecidableEq, Repr

/-- The colour a font changes to, if any. -/
def readDxfColor (ks : List Node) : Option (Option ColorSeen) :=
  match child "color".toList ks with
  | none => some none
  | some c => (readColor c.1).map some

/-- The fill of a differential format: without a pattern type the fill is solid, and the visible colour
of a solid fill is its background (unlike in a cell format). -/
def readDxfFill (ks : List Node) : Option FillSeen :=
  match child "fill".toList ks with
  | none => some .none
  | some f =>
    (child "patternFill".toList f.2).bind fun p =>
      match readFillColor "fgColor".toList p.2, readFillColor "bgColor".toList p.2 with
      | some fg, some bg =>
        let t := (p.1.lookup "patternType".toList).getD "solid".toList
        some (if t = "none".toList then .none
          else if t = "solid".toList then .solid bg
          else .pattern t fg bg)
      | _, _ => none

/-- A side of the border of a differential format; without a border element nothing changes. -/
def readDxfSide (t : Text) (ks : List Node) : Option SideSeen :=
  match child "border".toList ks with
  | none => some none
  | some b => readSide t b.2

/-- A `numFmt` element: its number and its code. -/
def readNumFmt (as : NodeAttrs) : Option (Nat × Text) :=
  match attrNat "numFmtId".toList as, as.lookup "formatCode".toList with
  | some n, some c => some (n, c)
  | _, _ => none

/-- The number format of a differential format. -/
def readDxfNum (ks : List Node) : Option (Option (NumSeen × Text)) :=
  match child "numFmt".toList ks with
  | none => some none
  | some e => (readNumFmt e.1).map fun p => some (if p.1 < 164 then .builtIn p.1 else .code p.2, p.2)

/-- The content of a `dxf` element. -/
def readDxfKids (ks : List Node) : Option DxfSeen :=
  let font := ((child "font".toList ks).map Prod.snd).getD []
  match readDxfColor font, readDxfNum ks, readDxfFill ks, readDxfSide "left".toList ks,
    readDxfSide "right".toList ks, readDxfSide "top".toList ks, readDxfSide "bottom".toList ks with
  | some color, some num, some fill, some l, some r, some t, some b =>
    some
      { bold := (child "b".toList font).isSome
        italic := (child "i".toList font).isSome
        strike := (child "strike".toList font).isSome
        underline := (child "u".toList font).map fun c => (c.1.lookup "val".toList).getD "single".toList
        color := color, num := num, fill := fill, left := l, right := r, top := t, bottom := b
        checkbox := (child "extLst".toList ks).isSome }
  | _, _, _, _, _, _, _ => none

/-- The `dxf` elements of a styles part; none without a `dxf` child (`<dxfs count="0"/>`). -/
def readDxfs (part : Node) : Option (List (NodeAttrs × List Node)) :=
  match part with
  | .elem _ _ ks => readItems "dxfs".toList "dxf".toList ks
  | .text _ => none

/-- Differential format number `i` of a styles part. -/
def readDxf (part : Node) (i : Nat) : Option DxfSeen :=
  (readDxfs part).bind fun l => (l[i]?).bind fun e => readDxfKids e.2

/-- The number formats of the user (from 164 on) anywhere in a styles part, as (number, code): those of
the cell formats, then those inside differential formats. -/
def userNumFmts (part : Node) : List (Nat × Text) :=
  match part with
  | .elem _ _ ks =>
    ((((readItems "numFmts".toList "numFmt".toList ks).getD []).map (readNumFmt ·.1)) ++
      (((readItems "dxfs".toList "dxf".toList ks).getD []).map fun e =>
        (child "numFmt".toList e.2).bind fun n => readNumFmt n.1)).filterMap id
      |>.filter fun p => decide (164 ≤ p.1)
  | .text _ => []

/-! ### What the user meant -/

/-- An unset or automatic colour changes nothing. -/
def colorChange (c : Color) : Option ColorSeen := if c = .default ∨ c = .automatic then none else some (colorMeant c)

/-- The fill meant: with no pattern or the solid one the cell gets the background colour, or the
foreground colour if that is the only one. -/
def dxfFillMeant (f : Fill) : FillSeen :=
  if f.pattern = .none ∨ f.pattern = .solid then
    match colorChange f.backgroundColor, colorChange f.foregroundColor with
    | some c, _ => .solid c
    | none, some c => .solid c
    | none, none => if f.pattern = .none then .none else .solid .auto
  else .pattern (patternName f.pattern) (colorMeant f.foregroundColor) (colorMeant f.backgroundColor)

/-- What a format used in a table or a conditional format changes. -/
def dxfMeant (f : Format) : DxfSeen :=
  { bold := f.font.bold
    italic := f.font.italic
    strike := f.font.strikethrough
    underline := (fontMeant f.font).underline
    color := colorChange f.font.color
    num := if f.numFormatIndex = 0 ∧ f.numFormat = [] then none else some (numMeant f, f.numFormat)
    fill := dxfFillMeant f.fill
    left := sideMeant f.borders.leftStyle f.borders.leftColor
    right := sideMeant f.borders.rightStyle f.borders.rightColor
    top := sideMeant f.borders.topStyle f.borders.topColor
    bottom := sideMeant f.borders.bottomStyle f.borders.bottomColor
    checkbox := f.checkbox }

/-- A plain fill for which only the foreground colour is set (see `C51_lone_foreground_counterexample`). -/
def loneForeground (f : Fill) : Bool :=
  (decide (f.pattern = .none) || decide (f.pattern = .solid)) &&
  (colorChange f.backgroundColor).isNone && (colorChange f.foregroundColor).isSome

end Verif.Spec
