import Verif.Spec.Xml
import Verif.Spec.Ref
import Verif.Spec.Style
import Verif.Spec.Book
import Verif.Model.CellXml
/-!
How a reader of the file sees the cells of a worksheet: ECMA-376 part 1, 18.3.1.4 `c`, 18.3.1.40 `f`,
18.3.1.73 `row`, 18.3.1.96 `v`, 18.18.11 `ST_CellType`, 18.4.8 `si`, 18.4.4 `r`.  The reader works on the
parsed XML of the worksheet part and of the shared strings part.
-/
namespace Verif.Spec
open Verif

/-! ### Numbers -/

/-- The states of the automaton for decimal numbers. -/
inductive NumState where
  | start | signed | int | point | frac | exp | expSign | expDigits
deriving DecidableEq, Repr

/-- One character of a decimal number such as `-1`, `2.5`, `.5`, `1e-7`. -/
def NumState.step : NumState → Char → Option NumState
  | .start, c => if c = '+' ∨ c = '-' then some .signed else if isDigit c then some .int
      else if c = '.' then some .point else none
  | .signed, c => if isDigit c then some .int else if c = '.' then some .point else none
  | .int, c => if isDigit c then some .int else if c = '.' then some .frac
      else if c = 'e' ∨ c = 'E' then some .exp else none
  | .point, c => if isDigit c then some .frac else none
  | .frac, c => if isDigit c then some .frac else if c = 'e' ∨ c = 'E' then some .exp else none
  | .exp, c => if c = '+' ∨ c = '-' then some .expSign else if isDigit c then some .expDigits else none
  | .expSign, c => if isDigit c then some .expDigits else none
  | .expDigits, c => if isDigit c then some .expDigits else none

/-- The states in which the number is complete. -/
def NumState.final : NumState → Bool
  | .int | .frac | .expDigits => true
  | _ => false

/-- Read on from a state. -/
def decimalFrom : NumState → Text → Bool
  | st, [] => st.final
  | st, c :: s => match st.step c with
    | some st' => decimalFrom st' s
    | none => false

/-- A decimal number (`xsd:double` without the words `INF` and `NaN`, which are not cell values). -/
def isDecimal (s : Text) : Bool := decimalFrom .start s

/-! ### Values -/

/-- The cell errors of the file format, 18.18.11. -/
def cellErrors : List Text :=
  ["#DIV/0!".toList, "#N/A".toList, "#NAME?".toList, "#NULL!".toList, "#NUM!".toList,
   "#REF!".toList, "#VALUE!".toList, "#GETTING_DATA".toList]

/-- The value shown in a cell.  A formatted string is a list of runs with their fonts; a run without
font uses that of the cell. -/
inductive Value where
  | number (t : Text)
  | text (s : Text)
  | runs (l : List (Option FontSeen × Text))
  | boolean (b : Bool)
  | error (e : Text)
deriving DecidableEq, Repr

/-- The font of a run, 18.4.7 `rPr`: as a font, but the name is in `rFont`. -/
def readRunFont (ks : List Node) : Option FontSeen :=
  match childVal "sz".toList ks, childVal "rFont".toList ks,
    readFontColor ks with
  | some size, some name, some color =>
    some
      { bold := (child "b".toList ks).isSome
        italic := (child "i".toList ks).isSome
        strike := (child "strike".toList ks).isSome
        underline := (child "u".toList ks).map fun c => (c.1.lookup "val".toList).getD "single".toList
        script := childVal "vertAlign".toList ks
        size := size
        color := color
        name := name
        family := ((childVal "family".toList ks).bind readNat).getD 0
        charset := ((childVal "charset".toList ks).bind readNat).getD 0
        scheme := (childVal "scheme".toList ks).getD [] }
  | _, _, _ => none

/-- A `t` element. -/
def readT : Node → Option Text
  | .elem t as ks => if t = "t".toList then (textOnly ks).map (textOfT as) else none
  | .text _ => none

/-- A run: an optional `rPr` and a `t`. -/
def readRichRun : Node → Option (Option FontSeen × Text)
  | .elem r _ [t] => if r = "r".toList then (readT t).map (none, ·) else none
  | .elem r _ [.elem p _ fk, t] =>
    if r = "r".toList && p = "rPr".toList then
      match readRunFont fk, readT t with
      | some f, some s => some (some f, s)
      | _, _ => none
    else none
  | _ => none

/-- The content of an `si` or `is` element: one `t`, or runs. -/
def readString (ks : List Node) : Option Value :=
  match ks with
  | [n] => match readT n with
    | some s => some (.text s)
    | none => (readRichRun n).map fun r => .runs [r]
  | [] => none
  | ks => (ks.mapM readRichRun).map .runs

/-! ### Cells -/

/-- A cell as a reader sees it. -/
structure CellSeen where
  row : Nat
  col : Nat
  style : Nat
  /-- the formula and, for an array formula, its range -/
  formula : Option (Text × Option Text)
  /-- cell and value metadata (dynamic arrays, images in cells) -/
  cm : Option Nat
  vm : Option Nat
  value : Option Value
deriving DecidableEq, Repr

/-- A number attribute that may be missing. -/
def optNat (as : NodeAttrs) (k : Text) : Option (Option Nat) :=
  match as.lookup k with
  | none => some none
  | some s => (readNat s).map some

/-- The text of a child element. -/
def childText (t : Text) (ks : List Node) : Option Text :=
  (child t ks).bind fun c => textOnly c.2

/-- The value of a cell of type `t`; `shared` are the entries of the shared strings part.  `none` is a
cell the reader cannot make sense of.  (`v` and `f` are read without stripping white space.) -/
def readValue (shared : List Value) (t : Text) (ks : List Node) : Option (Option Value) :=
  if t = "inlineStr".toList then
    (child "is".toList ks).bind fun c => (readString c.2).map some
  else match childText "v".toList ks with
    | none => if (child "v".toList ks).isNone then some none else none
    | some v =>
      if t = "n".toList then if isDecimal v then some (some (.number v)) else none
      else if t = "s".toList then
        (readNat v).bind fun i => (shared[i]?).map some
      else if t = "str".toList then some (some (.text (unescapeX v)))
      else if t = "b".toList then
        if v = "1".toList then some (some (.boolean true))
        else if v = "0".toList then some (some (.boolean false)) else none
      else if t = "e".toList then
        if cellErrors.contains v then some (some (.error v)) else none
      else none

/-- The formula of a cell: absent, normal, or the master cell of an array. -/
def readCellFormula (ks : List Node) : Option (Option (Text × Option Text)) :=
  match child "f".toList ks with
  | none => some none
  | some (as, fk) =>
    match textOnly fk, as.lookup "t".toList, as.lookup "ref".toList with
    | some s, none, none => some (some (unescapeX s, none))
    | some s, some t, some r => if t = "array".toList then some (some (unescapeX s, some r)) else none
    | _, _, _ => none

/-- A `c` element. -/
def readCellElem (shared : List Value) : Node → Option CellSeen
  | .elem c as ks =>
    if c ≠ "c".toList then none
    else match (as.lookup "r".toList).bind readA1, optNat as "s".toList, optNat as "cm".toList,
        optNat as "vm".toList, readCellFormula ks,
        readValue shared ((as.lookup "t".toList).getD "n".toList) ks with
      | some p, some style, some cm, some vm, some f, some v =>
        some { row := p.1, col := p.2, style := style.getD 0, formula := f, cm := cm, vm := vm, value := v }
      | _, _, _, _, _, _ => none
  | .text _ => none

/-! ### Rows -/

/-- The settings of a row as a reader sees them. -/
structure RowSettings where
  style : Option Nat
  height : Option Text
  hidden : Bool
  level : Nat
  collapsed : Bool
deriving DecidableEq, Repr

/-- A row as a reader sees it. -/
structure RowSeen where
  row : Nat
  settings : RowSettings
  cells : List CellSeen
deriving DecidableEq, Repr

/-- A flag attribute. -/
def flagOn (as : NodeAttrs) (k : Text) : Bool := as.lookup k = some "1".toList

/-- The settings of a `row` element: the style and the height count only together with `customFormat`
and `customHeight`. -/
def readSettings (as : NodeAttrs) : Option RowSettings :=
  match optNat as "s".toList, optNat as "outlineLevel".toList with
  | some s, some l =>
    some { style := if flagOn as "customFormat".toList then some (s.getD 0) else none
           height := if flagOn as "customHeight".toList then as.lookup "ht".toList else none
           hidden := flagOn as "hidden".toList
           level := l.getD 0
           collapsed := flagOn as "collapsed".toList }
  | _, _ => none

/-- A `row` element; its cells must carry its row number. -/
def readRowElem (shared : List Value) : Node → Option RowSeen
  | .elem r as ks =>
    if r ≠ "row".toList then none
    else match (as.lookup "r".toList).bind readRow, readSettings as, ks.mapM (readCellElem shared) with
      | some n, some st, some cells =>
        if cells.all (·.row = n) then some ⟨n, st, cells⟩ else none
      | _, _, _ => none
  | .text _ => none

/-- The `sheetData` section. -/
def readSheetData (shared : List Value) : Node → Option (List RowSeen)
  | .elem t _ ks => if t = "sheetData".toList then ks.mapM (readRowElem shared) else none
  | .text _ => none

/-- One entry of the shared strings part. -/
def readSi : Node → Option Value
  | .elem si _ k => if si = "si".toList then readString k else none
  | .text _ => none

/-- The entries of the shared strings part. -/
def readShared : Node → Option (List Value)
  | .elem t _ ks => if t = "sst".toList then ks.mapM readSi else none
  | .text _ => none

/-- Read a shared strings part and a `sheetData` section from their texts. -/
def readSheet (sharedText dataText : Text) : Option (List RowSeen) :=
  match (parseDoc sharedText).bind readShared, parseContent dataText with
  | some shared, some [n] => readSheetData shared n
  | _, _ => none

/-- The cell at a position. -/
def seenAt (rows : List RowSeen) (r c : Nat) : Option CellSeen :=
  (rows.flatMap (·.cells)).find? fun x => x.row == r && x.col == c

/-- What is in a cell, apart from its style. -/
structure View where
  formula : Option (Text × Option Text) := none
  cm : Option Nat := none
  value : Option Value := none
deriving DecidableEq, Repr

/-- What is in the cell at a position; an absent cell is empty. -/
def viewAt (rows : List RowSeen) (r c : Nat) : View :=
  match seenAt rows r c with
  | some x => ⟨x.formula, x.cm, x.value⟩
  | none => {}

/-- The style of the cell at a position; 0 for an absent cell. -/
def styleAt (rows : List RowSeen) (r c : Nat) : Nat :=
  match seenAt rows r c with
  | some x => x.style
  | none => 0

/-- The settings of a row, if the file has it. -/
def settingsAt (rows : List RowSeen) (r : Nat) : Option RowSettings :=
  (rows.find? fun x => x.row == r).map (·.settings)

/-! ### What the calls mean -/

/-- The value a formula result text stands for. -/
def resultMeant (s : Text) : Value :=
  if isDecimal s then .number s
  else if cellErrors.contains s then .error s
  else if s = "TRUE".toList then .boolean true
  else if s = "FALSE".toList then .boolean false
  else .text s

/-- The runs a list of formatted segments stands for: the first one uses the cell's font when its format
is the default one. -/
def runsMeant (segs : List (Format × Text)) : List (Option FontSeen × Text) :=
  match segs with
  | [] => []
  | s :: ss =>
    (if s.1 = {} then none else some (fontMeant s.1.font), s.2) ::
      ss.map fun s => (some (fontMeant s.1.font), s.2)

/-! ### Which texts can be written at all -/

/-- No U+FFFE and U+FFFF, which XML cannot carry. -/
def xmlText (s : Text) : Bool := s.all fun c => !isNonChar c

/-- `s` starts with something like an `_xHHHH` escape. -/
def startsEscape : Text → Bool
  | '_' :: 'x' :: a :: b :: c :: d :: _ =>
    (hexDigit? a).isSome && (hexDigit? b).isSome && (hexDigit? c).isSome && (hexDigit? d).isSome
  | _ => false

/-- Nothing in the text looks like an `_xHHHH_` escape. -/
def escapeFree : Text → Bool
  | [] => true
  | c :: s => !startsEscape (c :: s) && escapeFree s

/-- The text starts with `<r>` and ends with `</r>`. -/
def looksRich (s : Text) : Bool := "<r>".toList.isPrefixOf s && "</r>".toList.isSuffixOf s

/-- One of the words Rust reads as a floating point number. -/
def numberWord (s : Text) : Bool :=
  let t := s.map fun c => if 'A' ≤ c && c ≤ 'Z' then Char.ofNat (c.toNat + 32) else c
  let words := ["nan".toList, "inf".toList, "infinity".toList]
  words.contains t || words.contains (t.drop 1) && (t.head? = some '+' || t.head? = some '-')

/-- A formula or a formula result. -/
def formulaTextOk (s : Text) : Bool := xmlText s && escapeFree s

/-- The formats and texts of a rich string. -/
def segsOk (segs : List (Format × Text)) : Bool :=
  segs.all fun s => xmlText s.2 && escapeFree s.2 &&
    (s.1.font.color.isValid || s.1.font.color = .theme 10 0) && attrSafe s.1.font.name &&
    attrSafe s.1.font.size && attrSafe s.1.font.scheme

/-! ### What is meant by a cell -/

/-- What a reader should see of a cell with given content. -/
inductive Meant : Content → View → Prop
  | blank : Meant .blank {}
  | number (n : Text) : Meant (.number n) { value := some (.number n) }
  | dateTime (n : Text) : Meant (.dateTime n) { value := some (.number n) }
  | text (s : Text) : Meant (.text s) { value := some (.text s) }
  | rich (segs : List (Format × Text)) (markup raw : Text)
      (h : getRichString segs = some (markup, raw)) (hok : segsOk segs = true) :
      Meant (.rich markup raw) { value := some (.runs (runsMeant segs)) }
  | formula (f result : Text) :
      Meant (.formula f result) { formula := some (f, none), value := some (resultMeant result) }
  | array (f result range : Text) (dynamic : Bool) :
      Meant (.array f result dynamic range)
        { formula := some (f, some range), cm := if dynamic then some 1 else none,
          value := some (resultMeant result) }
  | boolean (b : Bool) : Meant (.boolean b) { value := some (.boolean b) }

/-- The content of a cell is text that the file can carry and that is not taken for something else. -/
def contentOk : Content → Prop
  | .blank | .boolean _ => True
  | .number n | .dateTime n => isDecimal n = true
  | .text s => xmlText s = true ∧ looksRich s = false
  | .rich markup raw => ∃ segs, getRichString segs = some (markup, raw) ∧ segsOk segs = true
  | .formula f r => formulaTextOk f = true ∧ formulaTextOk r = true ∧ numberWord r = false
  | .array f r _ range => formulaTextOk f = true ∧ formulaTextOk r = true ∧ numberWord r = false ∧
      range.all (fun c => isLetter c || isDigit c || c = ':') = true
  | .error _ => False

/-- A plain string. -/
def plainOk (s : Text) : Prop := xmlText s = true ∧ looksRich s = false

/-- A formula with its result. -/
def formulaOk (cfg : Cfg) (fa : FormulaArg) : Prop :=
  formulaTextOk fa.text = true ∧ formulaTextOk (resultOf cfg fa) = true ∧ numberWord (resultOf cfg fa) = false

/-- A number: printed as a decimal number, or one of the texts that stand for NaN and the infinities. -/
def numberOk (cfg : Cfg) : F64 → Prop
  | .finite t => isDecimal t = true
  | .nan => plainOk cfg.nanText
  | .posInf => plainOk cfg.infText
  | .negInf => plainOk cfg.negInfText

/-- The texts given to a call can be written and are not taken for something else. -/
def textsOk {Fmt : Type} (cfg : Cfg) : Op Fmt → Prop
  | .number _ _ n _ | .dateTime _ _ n _ => numberOk cfg n
  | .string _ _ s _ => plainOk s
  | .rich _ _ markup raw _ => contentOk (.rich markup raw)
  | .formula _ _ fa _ | .arrayFormula _ _ _ _ fa _ _ => formulaOk cfg fa
  | .rowHeight _ h => isDecimal h = true
  | _ => True

end Verif.Spec

/-! ### Row settings -/
namespace Verif.Spec
open Verif
variable {Fmt : Type}

/-- The height the history asks for on row `r` (last `set_row_height` wins). -/
def specHeight (ops : List (Op Fmt)) (r : Nat) : Option Text :=
  ops.foldl (fun a op => match op with
    | .rowHeight r' h => if r' = r ∧ r < 1048576 then some h else a
    | _ => a) none

/-- The history hides row `r`. -/
def specHidden (ops : List (Op Fmt)) (r : Nat) : Bool :=
  ops.any fun op => match op with
    | .rowHidden r' => r' = r ∧ r < 1048576
    | _ => false

/-- The settings of a row the file does not mention. -/
def plainRow : RowSettings := ⟨none, none, false, 0, false⟩

end Verif.Spec
