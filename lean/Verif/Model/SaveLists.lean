/-!
The lists a worksheet fills at each save and what is left in them for the next save:
/repo/src/worksheet.rs:16787-16810 (`reset`), 16158-16550 (the `prepare_*` functions),
/repo/src/packager.rs:911-960 (`write_vml_files`), /repo/src/drawing.rs:45-122.

`ρ` are relationships, `ν`, `β`, `σ` notes, buttons and shapes (with everything that is written for
them), `δ` the other drawing objects (images, charts).  The relationships are those of
Model/Package.lean; here only which list they go to and when it is emptied matters.
-/
namespace Verif
namespace SaveLists

/-- The relationship lists of a worksheet, /repo/src/worksheet.rs:1550-1566. -/
structure Rels (ρ : Type) where
  comment : List ρ := []
  drawingObject : List ρ := []
  drawing : List ρ := []
  hyperlink : List ρ := []
  table : List ρ := []
  vmlDrawing : List ρ := []
  background : List ρ := []
deriving DecidableEq

/-- Entries are pushed at the end of each list. -/
def Rels.push {ρ : Type} (a b : Rels ρ) : Rels ρ where
  comment := a.comment ++ b.comment
  drawingObject := a.drawingObject ++ b.drawingObject
  drawing := a.drawing ++ b.drawing
  hyperlink := a.hyperlink ++ b.hyperlink
  table := a.table ++ b.table
  vmlDrawing := a.vmlDrawing ++ b.vmlDrawing
  background := a.background ++ b.background

variable {ρ ν β σ δ : Type}

/-- The content of a worksheet as set through the API: notes, buttons, shapes and other drawing
objects in the order of their maps, header images, and the relationships they need. -/
structure Content (ρ ν β σ δ : Type) where
  notes : List ν
  buttons : List β
  headers : List δ
  objects : List δ
  shapes : List σ
  /-- Pushed by `prepare_drawings`, `prepare_vml` and (for tables) `prepare_tables`. -/
  rels : Rels ρ
  /-- Pushed while the worksheet part is written (`write_hyperlinks`,
  /repo/src/worksheet.rs:17725-17760). -/
  links : List ρ

/-- An entry of `drawing.drawings`: a shape's entry holds no shape, only its kind
(/repo/src/worksheet.rs:16300-16304). -/
inductive Anchor (δ : Type) where
  | object (d : δ)
  | shape

/-- A worksheet: content and per-save lists. -/
structure WSheet (ρ ν β σ δ : Type) where
  content : Content ρ ν β σ δ
  rels : Rels ρ := {}
  commentsVml : List ν := []
  buttonsVml : List β := []
  headerVml : List δ := []
  drawings : List (Anchor δ) := []
  drawingShapes : List σ := []
  shapeId : Nat := 0

/-- `reset`, /repo/src/worksheet.rs:16787-16810.  `comments_vml_info`, `buttons_vml_info`,
`drawing.shapes` and `drawing.shape_id` are not reset. -/
def WSheet.reset (s : WSheet ρ ν β σ δ) : WSheet ρ ν β σ δ :=
  { s with rels := {}, headerVml := [], drawings := [] }

/-- `prepare_drawings` and `prepare_vml` (and `prepare_tables`) for one worksheet,
/repo/src/worksheet.rs:16158-16550. -/
def WSheet.prepare (s : WSheet ρ ν β σ δ) : WSheet ρ ν β σ δ :=
  { s with
    rels := s.rels.push s.content.rels
    headerVml := s.headerVml ++ s.content.headers
    drawings := s.drawings ++ s.content.objects.map .object ++ s.content.shapes.map fun _ => .shape
    drawingShapes := s.drawingShapes ++ s.content.shapes
    commentsVml := s.commentsVml ++ s.content.notes
    buttonsVml := s.buttonsVml ++ s.content.buttons }

/-- What is written for a worksheet. -/
structure Written (ρ ν β σ δ : Type) where
  rels : Rels ρ
  /-- The `<v:shape>` elements of notes and buttons. -/
  vmlNotes : List ν
  vmlButtons : List β
  vmlHeaders : List δ
  /-- The anchors of the drawing part. -/
  objects : List δ
  shapes : List σ

/-- The drawing part: the anchors in order, each shape anchor takes the next shape
(/repo/src/drawing.rs:53-66, 111-113); `none` is an index out of bounds panic.  The third value is
the new `shape_id`. -/
def writeAnchors (shapes : List σ) : Nat → List (Anchor δ) → Option (List δ × List σ × Nat)
  | i, [] => some ([], [], i)
  | i, .object d :: l => (writeAnchors shapes i l).map fun r => (d :: r.1, r.2.1, r.2.2)
  | i, .shape :: l =>
    match shapes[i]? with
    | none => none
    | some s => (writeAnchors shapes (i + 1) l).map fun r => (r.1, s :: r.2.1, r.2.2)

/-- The packager: the worksheet part (hyperlink relationships are pushed while it is written),
the drawing part, and the VML parts, which take the lists with `Vec::append`, leaving them empty
(/repo/src/packager.rs:923-924); header images are cloned. -/
def WSheet.package (s : WSheet ρ ν β σ δ) : Option (WSheet ρ ν β σ δ × Written ρ ν β σ δ) :=
  match writeAnchors s.drawingShapes s.shapeId s.drawings with
  | none => none
  | some (objects, shapes, i) =>
    let rels := { s.rels with hyperlink := s.rels.hyperlink ++ s.content.links }
    some ({ s with rels := rels, commentsVml := [], buttonsVml := [], shapeId := i },
      { rels := rels, vmlNotes := s.commentsVml, vmlButtons := s.buttonsVml, vmlHeaders := s.headerVml,
        objects := objects, shapes := shapes })

/-- A successful save of the worksheet. -/
def WSheet.save (s : WSheet ρ ν β σ δ) : Option (WSheet ρ ν β σ δ × Written ρ ν β σ δ) := s.reset.prepare.package

/-- What happens to a worksheet: edits through the API (any new content), successful saves, saves
that fail before anything is prepared (sheet name and chartsheet checks,
/repo/src/workbook.rs:2068-2092), and saves that fail after `prepare_vml` and before packaging
(/repo/src/workbook.rs:2177-2195). -/
inductive Event (ρ ν β σ δ : Type) where
  | edit (c : Content ρ ν β σ δ)
  | save
  | failEarly
  | failLate

/-- One event; `none` is a panic. -/
def WSheet.step (s : WSheet ρ ν β σ δ) : Event ρ ν β σ δ → Option (WSheet ρ ν β σ δ)
  | .edit c => some { s with content := c }
  | .save => s.save.map Prod.fst
  | .failEarly => some s.reset
  | .failLate => some s.reset.prepare

/-- A history of events. -/
def WSheet.run (s : WSheet ρ ν β σ δ) (evs : List (Event ρ ν β σ δ)) : Option (WSheet ρ ν β σ δ) :=
  evs.foldlM WSheet.step s

/-- The visibility of a note: `prepare_vml_objects` stores the worksheet's setting in the notes that
have none of their own, /repo/src/worksheet.rs:16389-16394. -/
def applyShowAll (showAll : Bool) (visible : Option Bool) : Option Bool :=
  if showAll && visible.isNone then some true else visible

/-- The notes of a worksheet with `show_all_notes`: the stored visibilities after the preparation,
which are also what is written (/repo/src/note.rs:640, /repo/src/vml.rs:364-368, 578-580). -/
def prepareVisible (showAll : Bool) (notes : List (Option Bool)) : List (Option Bool) :=
  notes.map (applyShowAll showAll)

/-- A note is written as visible. -/
def shown (v : Option Bool) : Bool := v.getD false

end SaveLists
end Verif
