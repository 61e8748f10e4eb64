import Verif.Model.Package
import Verif.Spec.Dec
/-!
How a reader finds its way through an OPC package: part names, relationship files, resolution of
targets, content types (ECMA-376 part 2).
-/
namespace Verif.Spec
open Verif

/-- The segments of a path, separated by `/`. -/
def segmentsFrom (cur : List Char) : List Char → List (List Char)
  | [] => [cur]
  | c :: t => if c = '/' then cur :: segmentsFrom [] t else segmentsFrom (cur ++ [c]) t

/-- The segments of a path, separated by `/`. -/
def segments (path : List Char) : List (List Char) := segmentsFrom [] path

/-- A path from its segments. -/
def joinPath : List (List Char) → List Char
  | [] => []
  | [s] => s
  | s :: t => s ++ '/' :: joinPath t

/-- The relationship file of a part: `dir/_rels/file.rels`. -/
def relsName (part : List Char) : List Char :=
  joinPath ((segments part).dropLast ++
    ["_rels".toList, ((segments part).getLast?.getD []) ++ ".rels".toList])

/-- Follow the segments of a relative path from a folder: `..` goes up. -/
def walk : List (List Char) → List (List Char) → List (List Char)
  | dir, [] => dir
  | dir, s :: t => if s = "..".toList then walk dir.dropLast t else walk (dir ++ [s]) t

/-- The part a relative target names, seen from a part. -/
def resolve (source target : List Char) : List Char :=
  joinPath (walk (segments source).dropLast (segments target))

/-- The package: files with their names. -/
abbrev Zip := List (List Char × Part)

/-- The relationships of a part. -/
def relsOf (z : Zip) (part : List Char) : List (List Char × PRel) :=
  match z.lookup (relsName part) with
  | some (.rels l) => l
  | _ => []

/-- Where a relationship leads. -/
inductive Dest where
  | outside (address : List Char)
  | place (location : List Char)
  | part (name : List Char) (contents : Part)
deriving DecidableEq, Repr

/-- The destination of a relationship of a part; none if it names no file of the package. A target that
starts with `#` is a place in the document. -/
def destination (z : Zip) (source : List Char) (r : PRel) : Option Dest :=
  if r.mode = "External".toList then some (.outside r.target)
  else match r.target with
    | '#' :: place => some (.place place)
    | target => (z.lookup (resolve source target)).map (.part (resolve source target))

/-- The relationship of a part with an id: its type and destination. -/
def follow (z : Zip) (source id : List Char) : Option (List Char × Dest) :=
  ((relsOf z source).lookup id).bind fun r => (destination z source r).map fun d => (r.type, d)

/-- Where a link leads that a user put in: as written in the relationship. -/
def linkDest (u : PUrl) : Dest :=
  if u.internal then .place (u.target.drop 1) else .outside u.target

/-- The extension of a file: what follows the last dot. -/
def extensionFrom (cur : List Char) : List Char → List Char
  | [] => cur
  | c :: t => if c = '.' then extensionFrom t t else extensionFrom cur t

/-- The extension of a file name. -/
def extension (name : List Char) : List Char := extensionFrom [] name

/-- The content type of a part: by an override of its name, else by the default of its extension. -/
def contentTypeOf (z : Zip) (name : List Char) : Option (List Char) :=
  match z.lookup "[Content_Types].xml".toList with
  | some (.types defaults overrides) =>
    match overrides.lookup ('/' :: name) with
    | some t => some t
    | none => defaults.lookup (extension name)
  | _ => none

/-- The content type the standard gives to each kind of part. -/
def typeFor (macros : Bool) : Part → List (List Char)
  | .types _ _ => []
  | .rels _ => ["application/vnd.openxmlformats-package.relationships+xml".toList]
  | .workbook _ =>
    [if macros then "application/vnd.ms-excel.sheet.macroEnabled.main+xml".toList
     else "application/vnd.openxmlformats-officedocument.spreadsheetml.sheet.main+xml".toList]
  | .worksheet _ => ["application/vnd.openxmlformats-officedocument.spreadsheetml.worksheet+xml".toList]
  | .chartsheet _ => ["application/vnd.openxmlformats-officedocument.spreadsheetml.chartsheet+xml".toList]
  | .drawing _ => ["application/vnd.openxmlformats-officedocument.drawing+xml".toList]
  | .vml _ _ => ["application/vnd.openxmlformats-officedocument.vmlDrawing".toList]
  | .vmlImages _ => ["application/vnd.openxmlformats-officedocument.vmlDrawing".toList]
  | .comments _ => ["application/vnd.openxmlformats-officedocument.spreadsheetml.comments+xml".toList]
  | .chart _ => ["application/vnd.openxmlformats-officedocument.drawingml.chart+xml".toList]
  | .table _ => ["application/vnd.openxmlformats-officedocument.spreadsheetml.table+xml".toList]
  | .media _ => ["image/png".toList, "image/jpeg".toList, "image/gif".toList, "image/bmp".toList]
  | .richValueRel _ => ["application/vnd.ms-excel.richvaluerel+xml".toList]
  | .vbaProject _ => ["application/vnd.ms-office.vbaProject".toList]
  | .vbaSignature _ => ["application/vnd.ms-office.vbaProjectSignature".toList]
  | .plain .theme => ["application/vnd.openxmlformats-officedocument.theme+xml".toList]
  | .plain .styles => ["application/vnd.openxmlformats-officedocument.spreadsheetml.styles+xml".toList]
  | .plain .sharedStrings =>
    ["application/vnd.openxmlformats-officedocument.spreadsheetml.sharedStrings+xml".toList]
  | .plain .core => ["application/vnd.openxmlformats-package.core-properties+xml".toList]
  | .plain .app => ["application/vnd.openxmlformats-officedocument.extended-properties+xml".toList]
  | .plain .custom => ["application/vnd.openxmlformats-officedocument.custom-properties+xml".toList]
  | .plain .metadata =>
    ["application/vnd.openxmlformats-officedocument.spreadsheetml.sheetMetadata+xml".toList]
  | .plain .featurePropertyBag => ["application/vnd.ms-excel.featurepropertybag+xml".toList]
  | .plain .rdRichValue => ["application/vnd.ms-excel.rdrichvalue+xml".toList]
  | .plain .rdRichValueTypes => ["application/vnd.ms-excel.rdrichvaluetypes+xml".toList]
  | .plain .rdRichValueStructure => ["application/vnd.ms-excel.rdrichvaluestructure+xml".toList]

/-- The name of the part of the `k`-th sheet, found from the workbook part. -/
def sheetName (z : Zip) (k : Nat) : Option (List Char) :=
  match z.lookup "xl/workbook.xml".toList with
  | some (.workbook ids) =>
    match (ids[k]?).bind (follow z "xl/workbook.xml".toList) with
    | some (_, .part name _) => some name
    | _ => none
  | _ => none

/-- What a sheet part refers to. -/
def refsOf (z : Zip) (name : List Char) : Option SheetRefs :=
  match z.lookup name with
  | some (.worksheet r) => some r
  | some (.chartsheet r) => some r
  | _ => none

/-- The part of a type that an id of a part leads to. -/
def followPart (z : Zip) (source : List Char) (type : List Char) (id : List Char) :
    Option (List Char × Part) :=
  match follow z source id with
  | some (t, .part n p) => if t = type then some (n, p) else none
  | _ => none

/-- Where a hyperlink id leads. -/
def followLink (z : Zip) (source id : List Char) : Option Dest :=
  match follow z source id with
  | some (t, d) => if t = "hyperlink".toList then some d else none
  | none => none

/-- The drawing of a sheet: its name and objects. -/
def drawingOf (z : Zip) (sheet : List Char) : Option (List Char × List DrawObj) :=
  match (refsOf z sheet).bind fun r => r.drawing.bind (followPart z sheet "drawing".toList) with
  | some (n, .drawing os) => some (n, os)
  | _ => none

/-- An object of a drawing as a reader sees it; `none` inside stands for a reference that leads to
nothing of the right kind. -/
inductive ObjSeen where
  | picture (bytes : Option (List Nat)) (link : Option (Option Dest))
  | chart (chart : Option Nat)
  | shape (shape : Nat) (link : Option (Option Dest))
deriving DecidableEq, Repr

/-- The bytes of the image an id leads to. -/
def followImage (z : Zip) (source id : List Char) : Option (List Nat) :=
  match followPart z source "image".toList id with
  | some (_, .media d) => some d
  | _ => none

/-- The chart an id leads to. -/
def followChart (z : Zip) (source id : List Char) : Option Nat :=
  match followPart z source "chart".toList id with
  | some (_, .chart c) => some c
  | _ => none

/-- An object of a drawing with its references followed. -/
def seeObj (z : Zip) (drawing : List Char) : DrawObj → ObjSeen
  | .pic e l => .picture (followImage z drawing e) (l.map (followLink z drawing))
  | .frame i => .chart (followChart z drawing i)
  | .sp s l => .shape s (l.map (followLink z drawing))

/-- The objects of a sheet's drawing with their references followed. -/
def objectsOf (z : Zip) (sheet : List Char) : List ObjSeen :=
  match drawingOf z sheet with
  | some (n, os) => os.map (seeObj z n)
  | none => []

/-- The background image of a sheet. -/
def backgroundOf (z : Zip) (sheet : List Char) : Option (List Nat) :=
  (refsOf z sheet).bind fun r => r.picture.bind (followImage z sheet)

/-- The header and footer images of a sheet. -/
def headerImagesOf (z : Zip) (sheet : List Char) : List (Option (List Nat)) :=
  match (refsOf z sheet).bind fun r => r.legacyDrawingHF.bind (followPart z sheet "vmlDrawing".toList) with
  | some (n, .vmlImages ids) => ids.map (followImage z n)
  | _ => []

/-- The images of the cells with embedded images: the `vm` number counts the references of the rich
value part, from 1. -/
def embeddedOf (z : Zip) (sheet : List Char) : List (Option (List Nat)) :=
  match refsOf z sheet, z.lookup "xl/richData/richValueRel.xml".toList with
  | some r, some (.richValueRel ids) =>
    r.vm.map fun v => if v = 0 then none else
      (ids[v - 1]?).bind (followImage z "xl/richData/richValueRel.xml".toList)
  | some r, _ => r.vm.map fun _ => none
  | _, _ => []

/-- The hyperlinks with an address outside the sheet: cell and destination. -/
def linksOf (z : Zip) (sheet : List Char) : List ((Nat × Nat) × Option Dest) :=
  match refsOf z sheet with
  | some r => r.links.map fun l => (l.1, followLink z sheet l.2)
  | none => []

/-- The tables of a sheet. -/
def tablesOf (z : Zip) (sheet : List Char) : List (Option Nat) :=
  match refsOf z sheet with
  | some r => r.tableParts.map fun id =>
    match followPart z sheet "table".toList id with
    | some (_, .table t) => some t
    | _ => none
  | none => []

/-- The notes and buttons of a sheet, as shapes. -/
def noteShapesOf (z : Zip) (sheet : List Char) : Option (Option Nat × Option Nat) :=
  match (refsOf z sheet).bind fun r => r.legacyDrawing.bind (followPart z sheet "vmlDrawing".toList) with
  | some (_, .vml n b) => some (n, b)
  | _ => none

/-- The comments of a sheet: found by the type of the relationship. -/
def commentsOf (z : Zip) (sheet : List Char) : Option Nat :=
  match (relsOf z sheet).find? fun r => r.2.type = "comments".toList with
  | some r =>
    match destination z sheet r.2 with
    | some (.part _ (.comments n)) => some n
    | _ => none
  | none => none

/-- What the user put in a drawing, as seen by a reader. -/
def objectsPut (s : PSheet) : List ObjSeen :=
  s.images.map (fun im => .picture (some im.data) (im.url.map fun u => some (linkDest u))) ++
  s.charts.map (fun c => .chart (some c)) ++
  s.shapes.map (fun sh => .shape sh.1 (sh.2.map fun u => some (linkDest u)))

/-- All images of a sheet. -/
def imagesOf (s : PSheet) : List PImage := s.embedded ++ s.background.toList ++ s.images ++ s.hf

/-- Equal hashes mean equal images: the hash is a function of the bytes and the kind is read from the
bytes; a collision of two different files is excluded. -/
def HashOk (b : PBook) : Prop :=
  ∀ s ∈ b.sheets, ∀ t ∈ b.sheets, ∀ x ∈ imagesOf s, ∀ y ∈ imagesOf t,
    x.hash = y.hash → x.data = y.data ∧ x.kind = y.kind

/-- No image comes after a header or footer image in the order in which the image files are numbered:
embedded images of all sheets first, then sheet by sheet. -/
def HeaderImagesLast (b : PBook) : Prop :=
  ∀ pre s post, b.sheets = pre ++ s :: post → s.hf ≠ [] →
    (∀ t ∈ b.sheets, t.embedded = []) ∧ ∀ t ∈ post, t.background = none ∧ t.images = []

/-- The links of the objects of a sheet's drawing. -/
def objectLinks (s : PSheet) : List PUrl := s.images.filterMap PImage.url ++ s.shapes.filterMap Prod.snd

/-- The hash of an image is a number written in digits: it is not the text of a link of the drawing and
not the word "Chart". (A link to a relative file could be a number.) -/
def KeysOk (s : PSheet) : Prop :=
  ∀ im ∈ s.images, im.hash ≠ "Chart".toList ∧ ∀ u ∈ objectLinks s, u.link ≠ im.hash

/-- The links of a drawing are what the library takes them for: no link is the word "Chart" (a relative
file could have that name), links with the same address have the same target, internal links start with
`#`. -/
def LinksOk (s : PSheet) : Prop :=
  ∀ u ∈ objectLinks s, u.link ≠ "Chart".toList ∧ (u.internal = true → u.target.head? = some '#') ∧
    ∀ v ∈ objectLinks s, u.link = v.link → u.target = v.target ∧ u.internal = v.internal

/-- The internal links of the drawings start with `#`, as the library makes them. -/
def InternalOk (b : PBook) : Prop :=
  ∀ s ∈ b.sheets, ∀ u ∈ objectLinks s, u.internal = true → u.target.head? = some '#'

/-- The bytes a reader finds for a picture of a drawing. -/
def pictureBytes : ObjSeen → Option (Option (List Nat))
  | .picture d _ => some d
  | _ => none

/-- The chart a reader finds for a frame of a drawing. -/
def chartSeen : ObjSeen → Option (Option Nat)
  | .chart c => some c
  | _ => none

end Verif.Spec
