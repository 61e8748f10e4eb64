import Verif.Model.Notes
import Verif.Spec.Xml
import Verif.Spec.Ref
import Verif.Spec.Dec
/-!
What the user asked for with notes, and how a reader sees the notes of a comments part.
-/
namespace Verif.Spec
open Verif

/-- A call that stores a note: the cell is in the sheet and the text is not too long. -/
def noteAccepted (r c : Nat) (n : Note) : Bool :=
  decide (r < 1048576) && decide (c < 16384) && decide (n.text.length ≤ 32713)

/-- The note a user expects at a cell: the last accepted one. -/
def noteAt (calls : List NoteCall) (r c : Nat) : Option Note :=
  calls.foldl (fun cur call => match call with
    | .insert r' c' n => if noteAccepted r' c' n && r' == r && c' == c then some n else cur
    | _ => cur) none

/-- The default author: the last accepted one, at first `Author`. -/
def defaultAuthor (calls : List NoteCall) : List Char :=
  calls.foldl (fun cur call => match call with
    | .setDefaultAuthor name => if name.length ≤ 52 then name else cur
    | _ => cur) "Author".toList

/-- The author of a note: its own or the default one. -/
def authorOf (calls : List NoteCall) (n : Note) : List Char := n.author.getD (defaultAuthor calls)

/-- Each name once, in the order of first use. -/
def firstUse (names : List (List Char)) : List (List Char) :=
  names.foldl (fun u a => if a ∈ u then u else u ++ [a]) []

/-- Row by row order of cells. -/
def cellLt (p q : Nat × Nat) : Prop := p.1 < q.1 ∨ p.1 = q.1 ∧ p.2 < q.2

/-- A note as seen by a reader of the file. -/
structure NoteSeen where
  cell : Nat × Nat
  author : List Char
  text : List Char
deriving DecidableEq, Repr

/-- The text of a run. -/
def readRun : Node → Option (List Char)
  | .elem r _ [.elem rPr _ _, .elem t as kids] =>
    if r = "r".toList && rPr = "rPr".toList && t = "t".toList then
      (textOnly kids).map (textOfT as)
    else none
  | _ => none

/-- The name in an `author` element. -/
def readAuthor : Node → Option (List Char)
  | .elem a _ kids => if a = "author".toList then (textOnly kids).map unescapeX else none
  | _ => none

/-- A `comment` element, with the list of authors. -/
def readComment (authors : List (List Char)) : Node → Option NoteSeen
  | .elem c as [.elem t _ runs] =>
    if c = "comment".toList && t = "text".toList then
      match (as.lookup "ref".toList).bind readA1, (as.lookup "authorId".toList).bind readNat,
        runs.mapM readRun with
      | some cell, some id, some texts =>
        authors[id]?.map fun a => { cell := cell, author := a, text := texts.flatten }
      | _, _, _ => none
    else none
  | _ => none

/-- The notes of a comments part: `authorId` is an index into the `authors` list. -/
def readComments : Node → Option (List NoteSeen)
  | .elem root _ [.elem a _ authors, .elem l _ comments] =>
    if root = "comments".toList && a = "authors".toList && l = "commentList".toList then
      (authors.mapM readAuthor).bind fun names => comments.mapM (readComment names)
    else none
  | _ => none

/-- Text without the two characters `_x`, which start an escape in a SpreadsheetML string, and without
the characters U+FFFE and U+FFFF. -/
def plain : List Char → Bool
  | '_' :: 'x' :: _ => false
  | c :: s => !isNonChar c && plain s
  | [] => true

/-- The text of a note as written for an author: with the author's name on the first line unless the
user turned that off. -/
def shownText (author : List Char) (n : Note) : List Char :=
  if n.prefixed then author ++ ":\n".toList ++ n.text else n.text

/-- All user text of the calls is plain, and the font attributes are text XML attributes can carry. -/
def callPlain : NoteCall → Bool
  | .insert _ _ n => plain n.text && n.author.all plain && attrSafe n.fontSize &&
      attrSafe n.fontName && attrSafe n.fontFamily
  | .setDefaultAuthor name => plain name
  | .save => true

end Verif.Spec
