/-!
Specification: a small XML 1.0 reader (the subset used in OOXML parts: elements, attributes
in double quotes, character data, predefined and numeric entities, an XML declaration),
written from the XML recommendation, independent of the writer.
It also contains the two SpreadsheetML string conventions: `xml:space` and `_xHHHH_`.
-/
namespace Verif.Spec

abbrev Text := List Char

/-- XML 1.0 production [2] Char. -/
def xmlChar (c : Char) : Bool :=
  c = '\t' || c = '\n' || c = '\r' || (0x20 ≤ c.toNat && c.toNat ≤ 0xD7FF) ||
  (0xE000 ≤ c.toNat && c.toNat ≤ 0xFFFD) || (0x10000 ≤ c.toNat && c.toNat ≤ 0x10FFFF)

def isWs (c : Char) : Bool := c = ' ' || c = '\t' || c = '\n' || c = '\r'

/-- 2.11 End-of-line handling. -/
def normEol : Text → Text
  | '\r' :: '\n' :: s => '\n' :: normEol s
  | '\r' :: s => '\n' :: normEol s
  | c :: s => c :: normEol s
  | [] => []

def hexDigit? (c : Char) : Option Nat :=
  if '0' ≤ c && c ≤ '9' then some (c.toNat - 48)
  else if 'a' ≤ c && c ≤ 'f' then some (c.toNat - 87)
  else if 'A' ≤ c && c ≤ 'F' then some (c.toNat - 55)
  else none

def decDigit? (c : Char) : Option Nat :=
  if '0' ≤ c && c ≤ '9' then some (c.toNat - 48) else none

/-- Value of a digit string in a base. -/
def numeral (digit? : Char → Option Nat) (base : Nat) (s : Text) : Option Nat :=
  if s = [] then none
  else s.foldlM (fun n c => (digit? c).map (fun d => base * n + d)) 0

/-- Character with a code point, if it is a legal XML character. -/
def charOf (n : Nat) : Option Char :=
  if n.isValidChar then (if xmlChar (Char.ofNat n) then some (Char.ofNat n) else none) else none

/-- 4.1/4.6: character and predefined entity references (between `&` and `;`). -/
def entity (name : Text) : Option Char :=
  if name = "amp".toList then some '&'
  else if name = "lt".toList then some '<'
  else if name = "gt".toList then some '>'
  else if name = "quot".toList then some '"'
  else if name = "apos".toList then some '\''
  else match name with
    | '#' :: 'x' :: hs => (numeral hexDigit? 16 hs).bind charOf
    | '#' :: ds => (numeral decDigit? 10 ds).bind charOf
    | _ => none

/-- Resolve references in character data (`attr = false`) or in an attribute value
(`attr = true`, with 3.3.3 white space normalisation).  `pend` is the part of a reference
read so far, reversed.  A raw `<`, an illegal character or a bad reference is an error. -/
def decode (attr : Bool) : Option Text → Text → Option Text
  | none, [] => some []
  | some _, [] => none
  | none, c :: s =>
    if c = '&' then decode attr (some []) s
    else if c = '<' || !xmlChar c then none
    else (decode attr none s).map (fun t => (if attr && isWs c then ' ' else c) :: t)
  | some e, c :: s =>
    if c = ';' then
      match entity e.reverse with
      | some x => (decode attr none s).map (fun t => x :: t)
      | none => none
    else decode attr (some (c :: e)) s

/-- The sequence `]]>` must not occur in character data (2.4). -/
def hasCdataEnd : Text → Bool
  | ']' :: ']' :: '>' :: _ => true
  | _ :: s => hasCdataEnd s
  | [] => false

/-- Name characters (ASCII part of productions [4], [4a]). -/
def nameStart (c : Char) : Bool :=
  ('a' ≤ c && c ≤ 'z') || ('A' ≤ c && c ≤ 'Z') || c = '_' || c = ':'
def nameChar (c : Char) : Bool :=
  nameStart c || ('0' ≤ c && c ≤ '9') || c = '-' || c = '.'

def isName (s : Text) : Bool := s.head?.any nameStart && s.all nameChar

inductive Tok where
  | start (tag : Text) (as : List (Text × Text))
  | close (tag : Text)
  | empty (tag : Text) (as : List (Text × Text))
  | text (s : Text)
deriving Repr, DecidableEq

/-- Attributes up to (not including) `>` or `/>`; each preceded by white space. -/
def readAttrs : Nat → Text → Option (List (Text × Text) × Text)
  | 0, _ => none
  | f + 1, s =>
    match s.dropWhile isWs with
    | '>' :: r => some ([], '>' :: r)
    | '/' :: r => some ([], '/' :: r)
    | s' =>
      if s' = s then none
      else
        let name := s'.takeWhile nameChar
        match s'.dropWhile nameChar with
        | '=' :: '"' :: v =>
          match v.dropWhile (· ≠ '"') with
          | '"' :: r =>
            if !isName name then none
            else match decode true none (v.takeWhile (· ≠ '"')), readAttrs f r with
              | some val, some (as, r') => some ((name, val) :: as, r')
              | _, _ => none
          | _ => none
        | _ => none

/-- Split a document body into tags and character data. -/
def tokens : Nat → Text → Option (List Tok)
  | 0, _ => none
  | _ + 1, [] => some []
  | f + 1, '<' :: '/' :: s =>
    let name := s.takeWhile nameChar
    match (s.dropWhile nameChar).dropWhile isWs with
    | '>' :: r => if isName name then (tokens f r).map (Tok.close name :: ·) else none
    | _ => none
  | f + 1, '<' :: s =>
    let name := s.takeWhile nameChar
    let s' := s.dropWhile nameChar
    match readAttrs (s'.length + 1) s' with
    | some (as, r) =>
      if !isName name || !decide (as.map Prod.fst).Nodup then none
      else match r with
        | '>' :: r => (tokens f r).map (Tok.start name as :: ·)
        | '/' :: '>' :: r => (tokens f r).map (Tok.empty name as :: ·)
        | _ => none
    | none => none
  | f + 1, s =>
    let raw := s.takeWhile (· ≠ '<')
    if hasCdataEnd raw then none
    else match decode false none raw, tokens f (s.dropWhile (· ≠ '<')) with
      | some t, some ts => some (Tok.text t :: ts)
      | _, _ => none

/-- Parsed XML content. -/
inductive Node where
  | elem (tag : Text) (as : List (Text × Text)) (kids : List Node)
  | text (s : Text)
deriving Repr

/-- Match start and end tags. `acc` are the finished siblings (reversed), `st` the open
elements with their attributes and the siblings before them. -/
def build : List Tok → List Node → List (Text × List (Text × Text) × List Node) →
    Option (List Node)
  | [], acc, [] => some acc.reverse
  | [], _, _ :: _ => none
  | .start t as :: ts, acc, st => build ts [] ((t, as, acc) :: st)
  | .empty t as :: ts, acc, st => build ts (.elem t as [] :: acc) st
  | .text s :: ts, acc, st => build ts (.text s :: acc) st
  | .close t :: ts, acc, (t', as, acc') :: st =>
    if t = t' then build ts (.elem t' as acc.reverse :: acc') st else none
  | .close _ :: _, _, [] => none

/-- Parse element content (no declaration). -/
def parseContent (s : Text) : Option (List Node) :=
  let s := normEol s
  match tokens (s.length + 1) s with
  | some ts => build ts [] []
  | none => none

/-- The XML declaration: `<?xml ... ?>` at the very start. -/
def skipDeclaration (s : Text) : Text :=
  if "<?xml ".toList.isPrefixOf s then
    match s.dropWhile (· ≠ '>') with
    | '>' :: r => r.dropWhile isWs
    | _ => s
  else s

/-- Parse a document: optional declaration, then exactly one root element. -/
def parseDoc (s : Text) : Option Node :=
  match parseContent (skipDeclaration s) with
  | some [.elem t as kids] => some (.elem t as kids)
  | _ => none

/-! ### SpreadsheetML string conventions -/

/-- ECMA-376 `ST_Xstring`: `_xHHHH_` stands for the character with that code. -/
def unescapeX : Text → Text
  | '_' :: 'x' :: a :: b :: c :: d :: '_' :: s =>
    match numeral hexDigit? 16 [a, b, c, d] with
    | some n => Char.ofNat n :: unescapeX s
    | none => '_' :: unescapeX ('x' :: a :: b :: c :: d :: '_' :: s)
  | c :: s => c :: unescapeX s
  | [] => []
termination_by s => s.length

/-- Strip leading and trailing XML white space. -/
def trimWs (s : Text) : Text := ((s.dropWhile isWs).reverse.dropWhile isWs).reverse

/-- The string shown for a `<t>` element: white space at the ends is only significant with
`xml:space="preserve"`; then `_xHHHH_` is decoded. -/
def textOfT (as : List (Text × Text)) (s : Text) : Text :=
  unescapeX (if as.lookup "xml:space".toList = some "preserve".toList then s else trimWs s)

/-- Concatenated character data of the children (only text allowed). -/
def textOnly : List Node → Option Text
  | [] => some []
  | .text s :: ns => (textOnly ns).map (s ++ ·)
  | .elem .. :: _ => none

/-- The string shown for a parsed plain `<si>` element. -/
def stringOfSi : Node → Option Text
  | .elem si _ [.elem t as kids] =>
    if si = "si".toList && t = "t".toList then (textOnly kids).map (textOfT as) else none
  | _ => none

end Verif.Spec
namespace Verif.Spec

/-- Upper case hexadecimal digit. -/
def hexUpper (d : Nat) : Char := if d < 10 then Char.ofNat (48 + d) else Char.ofNat (55 + d)

/-- Excel's replacement for a character it cannot store: `_xHHHH_`. -/
def excelEscapeOf (c : Char) : Text :=
  let n := c.toNat
  ['_', 'x', hexUpper (n / 4096 % 16), hexUpper (n / 256 % 16), hexUpper (n / 16 % 16),
   hexUpper (n % 16), '_']

/-- Control characters that cannot appear in XML text (or, for CR, would be normalised away). -/
def isControl (c : Char) : Bool := c.toNat < 0x20 && c ≠ '\t' && c ≠ '\n'

/-- Replace the control characters of a text by Excel's `_xHHHH_` form. -/
def excelControlEscape (s : Text) : Text :=
  s.flatMap fun c => if isControl c then excelEscapeOf c else [c]

/-- Characters which exist in neither XML documents nor as control escapes: U+FFFE, U+FFFF. -/
def isNonChar (c : Char) : Bool := c.toNat = 0xFFFE || c.toNat = 0xFFFF

/-- Attribute values that XML can carry verbatim with this escaping. -/
def attrSafe (s : Text) : Bool := s.all fun c => xmlChar c && c ≠ '\t' && c ≠ '\r'

end Verif.Spec
