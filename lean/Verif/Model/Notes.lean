import Verif.Model.Sheet
import Verif.Model.Xml
import Verif.Model.DefinedNames
/-!
Notes: `insert_note`, `set_default_note_author` (/repo/src/worksheet.rs:5745-5787, 6049-6059), the
author ids given at save (/repo/src/worksheet.rs:16384-16413), the comments part
(/repo/src/comment.rs:49-221, /repo/src/packager.rs:891-910) and the VML shape ids
(/repo/src/workbook.rs:2222-2250, /repo/src/worksheet.rs:16384-16468, /repo/src/vml.rs:57-106).
-/
namespace Verif

/-- `BTreeMap<String, usize>`: pairs in increasing key order; `insert` replaces. -/
def smapInsert {β : Type} (k : Str) (v : β) : List (Str × β) → List (Str × β)
  | [] => [(k, v)]
  | (k', v') :: t =>
    if k = k' then (k, v) :: t
    else if strLe k k' then (k, v) :: (k', v') :: t
    else (k', v') :: smapInsert k v t

/-- The fields of `Note` that reach the comments part, /repo/src/note.rs:77-100. The font size, name
and family are kept as the text written for them. -/
structure Note where
  text : Str
  author : Option Str := none
  authorId : Nat := 0
  prefixed : Bool := true
  fontSize : Str := "8".toList
  fontName : Str := "Tahoma".toList
  fontFamily : Str := "2".toList
deriving DecidableEq, Repr

/-- `Note::set_author`, /repo/src/note.rs:222-231. -/
def Note.setAuthor (n : Note) (name : Str) : Note :=
  if name.length > 52 then n else { n with author := some name }

/-- The note fields of a worksheet, /repo/src/worksheet.rs:1523-1524, 1838. -/
structure NoteSheet where
  notes : BMap (BMap Note) := []
  authors : List (Str × Nat) := [("Author".toList, 0)]
deriving DecidableEq, Repr

/-- `insert_note`, /repo/src/worksheet.rs:5745-5787: `none` is an error, nothing stored. -/
def NoteSheet.insertNote (s : NoteSheet) (r c : Nat) (n : Note) : Option NoteSheet :=
  if r ≥ ROW_MAX ∨ c ≥ COL_MAX then none
  else if n.text.length > 32767 - 54 then none
  else
    match BMap.get r s.notes with
    | some cols => some { s with notes := BMap.insert r (BMap.insert c n cols) s.notes }
    | none => some { s with notes := BMap.insert r [(c, n)] s.notes }

/-- `set_default_note_author`, /repo/src/worksheet.rs:6049-6059. -/
def NoteSheet.setDefaultAuthor (s : NoteSheet) (name : Str) : NoteSheet :=
  if name.length > 52 then s else { s with authors := [(name, 0)] }

/-- The author id of one note, /repo/src/worksheet.rs:16396-16411. -/
def prepNote (au : List (Str × Nat)) (n : Note) : List (Str × Nat) × Note :=
  match n.author with
  | none => (au, n)
  | some a =>
    match au.lookup a with
    | some i => (au, { n with authorId := i })
    | none => (smapInsert a au.length au, { n with authorId := au.length })

/-- The inner loop over the columns of a row, /repo/src/worksheet.rs:16390-16412. -/
def prepCols (au : List (Str × Nat)) : BMap Note → List (Str × Nat) × BMap Note
  | [] => (au, [])
  | (c, n) :: t =>
    let (au, n) := prepNote au n
    let (au, t) := prepCols au t
    (au, (c, n) :: t)

/-- The outer loop over the rows, /repo/src/worksheet.rs:16389-16413. -/
def prepRows (au : List (Str × Nat)) : BMap (BMap Note) → List (Str × Nat) × BMap (BMap Note)
  | [] => (au, [])
  | (r, cols) :: t =>
    let (au, cols) := prepCols au cols
    let (au, t) := prepRows au t
    (au, (r, cols) :: t)

/-- The part of `prepare_vml_objects` that numbers the authors, /repo/src/worksheet.rs:16388-16413. -/
def NoteSheet.prepare (s : NoteSheet) : NoteSheet :=
  let (au, notes) := prepRows s.authors s.notes
  { notes := notes, authors := au }

/-- `write_text`, /repo/src/comment.rs:211-220. -/
def noteT (text : Str) : Tree :=
  .data "t".toList text
    (if text.head?.any isSstWhitespace || text.getLast?.any isSstWhitespace then
      [("xml:space".toList, "preserve".toList)] else [])

/-- `write_paragraph_run`, /repo/src/comment.rs:160-208. -/
def noteRPr (n : Note) (bold : Bool) : Tree :=
  .node "rPr".toList []
    ((if bold then [.empty "b".toList []] else []) ++
     [.empty "sz".toList [("val".toList, n.fontSize)],
      .empty "color".toList [("indexed".toList, "81".toList)],
      .empty "rFont".toList [("val".toList, n.fontName)],
      .empty "family".toList [("val".toList, n.fontFamily)]])

/-- `write_text_block`, /repo/src/comment.rs:124-157. -/
def noteText (authors : List Str) (n : Note) : Tree :=
  .node "text".toList []
    (if n.prefixed then
      let author := match authors[n.authorId]? with
        | some a => a ++ ":".toList
        | none => "Author:".toList
      [.node "r".toList [] [noteRPr n true, noteT author],
       .node "r".toList [] [noteRPr n false, noteT ('\n' :: n.text)]]
    else [.node "r".toList [] [noteRPr n false, noteT n.text]])

/-- `write_comment`, /repo/src/comment.rs:111-121. -/
def noteComment (authors : List Str) (r c : Nat) (n : Note) : Tree :=
  .node "comment".toList
    [("ref".toList, rowColToCell r c), ("authorId".toList, showNat n.authorId)]
    [noteText authors n]

/-- The comments part of a prepared sheet, /repo/src/comment.rs:49-108 with the author list of
/repo/src/packager.rs:900. -/
def NoteSheet.commentsPart (s : NoteSheet) : Str :=
  let authors := s.authors.map Prod.fst
  writePart (.node "comments".toList
    [("xmlns".toList, "http://schemas.openxmlformats.org/spreadsheetml/2006/main".toList)]
    ((if authors = [] then [] else
      [.node "authors".toList [] (authors.map fun a => .data "author".toList a [])]) ++
     [.node "commentList".toList []
      (s.notes.flatMap fun row => row.2.map fun cell => noteComment authors row.1 cell.1 cell.2)]))

/-- The calls about notes a user can make on a sheet. -/
inductive NoteCall where
  | insert (r c : Nat) (n : Note)
  | setDefaultAuthor (name : Str)
  | save
deriving DecidableEq, Repr

/-- One call; a refused call changes nothing. The author id of a note is private to the crate, so that
a user's note has the 0 of `Note::new` (/repo/src/note.rs:159). -/
def NoteSheet.exec (s : NoteSheet) : NoteCall → NoteSheet
  | .insert r c n => (s.insertNote r c { n with authorId := 0 }).getD s
  | .setDefaultAuthor name => s.setDefaultAuthor name
  | .save => s.prepare

/-- The sheet after a sequence of calls. -/
def NoteSheet.run (calls : List NoteCall) : NoteSheet := calls.foldl NoteSheet.exec {}

/-! ### VML shape ids -/

/-- What `prepare_vml` needs of a sheet: its numbers of buttons and notes. A sheet has VML when it has
one of either (/repo/src/worksheet.rs:5784, 6176). -/
structure VmlSheet where
  buttons : Nat
  notes : Nat
deriving DecidableEq, Repr

/-- The VML part of a sheet: the block ids of its `o:idmap` element and the ids of its shapes,
buttons first. -/
structure VmlPart where
  blocks : List Nat
  shapes : List Nat
deriving DecidableEq, Repr

/-- The data ids and shape ids of one sheet: `prepare_vml_objects`, /repo/src/worksheet.rs:16455-16467,
and `assemble_xml_file`, /repo/src/vml.rs:57-90 (the shape id is incremented before each shape). -/
def VmlSheet.part (s : VmlSheet) (dataId shapeId : Nat) : VmlPart :=
  { blocks := dataId :: (List.range (s.notes / 1024)).map fun i => dataId + i + 1
    shapes := (List.range (s.buttons + s.notes)).map fun i => shapeId + i + 1 }

/-- The loop of `prepare_vml`, /repo/src/workbook.rs:2228-2249, over the sheets, with the next data and
shape ids. Ids are unbounded here (`u32` in the code). -/
def prepareVml (dataId shapeId : Nat) : List VmlSheet → List VmlPart
  | [] => []
  | s :: t =>
    if s.buttons = 0 ∧ s.notes = 0 then prepareVml dataId shapeId t
    else s.part dataId shapeId ::
      prepareVml (dataId + (1024 + s.notes) / 1024) (shapeId + 1024 * ((1024 + s.notes) / 1024)) t

/-- The VML parts of a workbook, /repo/src/workbook.rs:2222-2226. -/
def vmlParts (sheets : List VmlSheet) : List VmlPart := prepareVml 1 1024 sheets

end Verif
