import Verif.Spec.Xml
import Verif.Spec.Ref
import Verif.Spec.Dec
/-!
What a hyperlink string means, when the library must accept it, and how a reader of the file sees the
hyperlinks of a sheet. Nothing here uses the model.
-/
namespace Verif.Spec

/-- Percent-decoding (RFC 3986, 2.1) of ASCII octets: `%` and two hex digits of either case stand for
one character. Anything else, and octets from 128 on, are copied. -/
def percentDecode : Text → Text
  | [] => []
  | [a] => [a]
  | [a, b] => [a, b]
  | a :: b :: c :: s =>
    match hexDigit? b, hexDigit? c with
    | some x, some y =>
      if a = '%' ∧ 16 * x + y < 128 then Char.ofNat (16 * x + y) :: percentDecode s
      else a :: percentDecode (b :: c :: s)
    | _, _ => a :: percentDecode (b :: c :: s)

/-- The characters that may not occur in the target of a relationship. -/
def refused : List Char := ['"', ' ', '<', '>', '[', ']', '^', '`', '{', '}']

/-- Text in which one of the library's own escape codes occurs already. -/
def escapedAlready (s : Text) : Prop :=
  ∃ e ∈ ["%25", "%22", "%20", "%3c", "%3e", "%5b", "%5d", "%5e", "%60", "%7b", "%7d"],
    e.toList <:+: s

/-- Where a link leads: to a place in another resource, or to a place in the same workbook. -/
structure LinkDest where
  resource : Option Text
  place : Text
deriving DecidableEq, Repr

/-- A resource with an optional `#place`. -/
def splitPlace (s : Text) : LinkDest :=
  { resource := some (s.takeWhile (· ≠ '#')), place := (s.dropWhile (· ≠ '#')).drop 1 }

/-- The path of a `file:` link. -/
def pathOf (s : Text) : Text := if "file:///".toList <+: s then s.drop 8 else s.drop 7

/-- A Windows share `\\server` or a drive `X:`. -/
def absolutePath (s : Text) : Bool :=
  s.take 2 = "\\\\".toList ||
  (s[1]? = some ':' && s.head?.any fun c => c ≠ ':' && decide (c.toNat < 128))

/-- What the link strings of the documentation mean: web links with an optional `#place`, mail links,
`internal:` places and `file:` links; a relative path is meant relative to the workbook, without the
`file:` prefix. -/
def destOf (s : Text) : Option LinkDest :=
  if ∃ p ∈ ["http://", "https://", "ftp://", "ftps://"], p.toList <+: s then some (splitPlace s)
  else if "mailto:".toList <+: s then some { resource := some s, place := [] }
  else if "internal:".toList <+: s then some { resource := none, place := s.drop 9 }
  else if "file://".toList <+: s then
    some (splitPlace (if absolutePath (pathOf s) then s else pathOf s))
  else none

/-- The `file:` prefix occurs at most once, at the start. -/
def filePrefixOnce (s : Text) : Prop := ¬ "file://".toList <:+: s.drop 1

/-- The limits of Excel: 2080 characters for the resource and for the place (for a place in the same
workbook the prefix `internal:` counts), 255 for the tip. -/
def withinLimits (s : Text) (d : LinkDest) (tip : Text) : Prop :=
  (d.resource.getD s).length ≤ 2080 ∧ d.place.length ≤ 2080 ∧ tip.length ≤ 255

/-- A written target leads to a resource: it is the resource if that was escaped by the user, else it
decodes to the resource and has none of the refused characters. -/
def leadsTo (target resource : Text) : Prop :=
  (escapedAlready resource → target = resource) ∧
  (¬ escapedAlready resource →
    percentDecode target = resource ∧ ∀ c ∈ target, c ∉ refused)

/-- One relationship: type, target, mode. -/
abbrev LinkRel := Text × Text × Text

/-- A hyperlink as seen by a reader: the cell, the target of its relationship, the place, the tip. -/
structure LinkSeen where
  cell : Nat × Nat
  target : Option Text
  place : Text
  tip : Text
deriving DecidableEq, Repr

/-- The external target of the relationship `rIdN`, the `N`-th one. -/
def relTarget (rels : List LinkRel) (id : Text) : Option Text :=
  if id.take 3 = "rId".toList then
    match readNat (id.drop 3) with
    | some (n + 1) => (rels[n]?).bind fun r =>
        if r.1 = "hyperlink".toList ∧ r.2.2 = "External".toList then some r.2.1 else none
    | _ => none
  else none

/-- The target of an optional relationship id. -/
def linkTarget (rels : List LinkRel) : Option Text → Option (Option Text)
  | none => some none
  | some id => (relTarget rels id).map some

/-- A `hyperlink` element. -/
def readLink (rels : List LinkRel) : Node → Option LinkSeen
  | .elem t as [] =>
    if t = "hyperlink".toList then
      ((as.lookup "ref".toList).bind readA1).bind fun cell =>
        (linkTarget rels (as.lookup "r:id".toList)).map fun t =>
          { cell := cell, target := t, place := (as.lookup "location".toList).getD []
            tip := (as.lookup "tooltip".toList).getD [] }
    else none
  | _ => none

/-- A `write_url` call: the cell, the link string, the text to show and the tip. -/
structure UrlCall where
  row : Nat
  col : Nat
  link : Text
  text : Text := []
  tip : Text := []

/-- The calls that must be accepted. -/
def UrlCall.Accepted (x : UrlCall) : Prop :=
  x.row < 1048576 ∧ x.col < 16384 ∧ x.text.length ≤ 32767 ∧
  ∃ d, destOf x.link = some d ∧ withinLimits x.link d x.tip

open Classical in
/-- The link a user expects at a cell: the last accepted one. -/
noncomputable def linkAt (calls : List UrlCall) (r c : Nat) : Option UrlCall :=
  calls.foldl (fun cur x => if x.Accepted ∧ x.row = r ∧ x.col = c then some x else cur) none

/-- A reader sees the link of a call. -/
def Shows (x : UrlCall) (l : LinkSeen) : Prop :=
  l.cell = (x.row, x.col) ∧ l.tip = x.tip ∧
  ∃ d, destOf x.link = some d ∧ l.place = d.place ∧
    match d.resource, l.target with
    | none, none => True
    | some r, some t => leadsTo t r
    | _, _ => False

end Verif.Spec
