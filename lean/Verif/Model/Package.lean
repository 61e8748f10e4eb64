import Verif.Model.Dec
/-!
The files of a saved workbook and the links between them: `prepare_embedded_images`,
`prepare_drawings`, `prepare_vml`, `prepare_tables`, `set_package_options`
(/repo/src/workbook.rs:2222-2375, 2729-2864), the `prepare_*` functions of a sheet
(/repo/src/worksheet.rs:16158-16560), the r:id attributes of the sheet, drawing and workbook XML, the
relationship and content type files and the list of zip entries (/repo/src/packager.rs:110-1105).

Simplifications. The contents of a part are reduced to what links parts together; charts, tables,
notes, buttons and shapes are opaque numbers chosen by the user. Maps keyed by cell position are lists
in key order. `reset` (/repo/src/worksheet.rs:16787-16810) empties the relationship lists at the start of
every save, so that they start empty here. Counters are unbounded, except the `u16` counter of the
relationship ids, which wraps as in a release build.
-/
namespace Verif

/-- `XlsxImageType`, /repo/src/image.rs:1168-1174, without `Unknown`, which no accepted image has. -/
inductive ImgType where
  | png | jpeg | gif | bmp
deriving DecidableEq, Repr

/-- `XlsxImageType::extension`, /repo/src/image.rs:1177-1185. -/
def ImgType.extension : ImgType → Str
  | .png => "png".toList
  | .jpeg => "jpeg".toList
  | .gif => "gif".toList
  | .bmp => "bmp".toList

/-- The fields of an initialized `Url` that matter for relationships, /repo/src/url.rs:262-273. -/
structure PUrl where
  link : Str
  target : Str
  internal : Bool := false
deriving DecidableEq, Repr

/-- `Url::target_mode`, /repo/src/url.rs:503-509. -/
def PUrl.mode (u : PUrl) : Str := if u.internal then [] else "External".toList

/-- `Image`, /repo/src/image.rs:60-90: the bytes, their hash and kind, and the link. -/
structure PImage where
  hash : Str
  kind : ImgType
  data : List Nat
  url : Option PUrl := none
deriving DecidableEq, Repr

/-- What of a sheet reaches other parts. `hf` are the header and footer images that are present, in
position order. -/
structure PSheet where
  chartsheet : Bool := false
  links : List ((Nat × Nat) × PUrl) := []
  embedded : List PImage := []
  background : Option PImage := none
  images : List PImage := []
  charts : List Nat := []
  shapes : List (Nat × Option PUrl) := []
  hf : List PImage := []
  notes : Option Nat := none
  buttons : Option Nat := none
  tables : List Nat := []
  dynamicArrays : Bool := false
deriving DecidableEq, Repr

/-- `has_vml`, set by `insert_note` and `insert_button`, /repo/src/worksheet.rs:5784, 6176. -/
def PSheet.hasVml (s : PSheet) : Bool := s.notes.isSome || s.buttons.isSome

/-- Whether the `drawings` list of the sheet is not empty after `prepare_drawings`: every image, chart
and shape pushes one, /repo/src/worksheet.rs:16232, 16303, 16512. -/
def PSheet.hasDrawing (s : PSheet) : Bool :=
  !s.images.isEmpty || !s.charts.isEmpty || !s.shapes.isEmpty

/-- What of the workbook decides which parts are written. -/
structure PBook where
  sheets : List PSheet
  sst : Bool := false
  vba : Option (List Nat) := none
  signature : Option (List Nat) := none
  custom : Bool := false
  bags : Bool := false
deriving DecidableEq, Repr

/-- A relationship tuple `(type, target, mode)`; the type without the schema in front of it. -/
structure PRel where
  type : Str
  target : Str
  mode : Str := []
deriving DecidableEq, Repr

/-- `format!("rId{n}")`, /repo/src/relationship.rs:109, /repo/src/worksheet.rs:18174, 19452, 19460, 19468,
19476, 19501, /repo/src/drawing.rs:269, 307. -/
def relStr (n : Nat) : Str := "rId".toList ++ showNat n

/-- A graphical object of a drawing part, /repo/src/drawing.rs:89-122: a picture with the id of its image
and of its link, the frame of a chart, a shape with the id of its link. -/
inductive DrawObj where
  | pic (embed : Str) (link : Option Str)
  | frame (id : Str)
  | sp (shape : Nat) (link : Option Str)
deriving DecidableEq, Repr

/-- The ids a sheet part refers to: the `r:id` attributes of its `hyperlink`, `drawing`, `legacyDrawing`,
`legacyDrawingHF`, `picture` and `tablePart` elements, and the `vm` numbers of the cells holding the
sheet's embedded images. -/
structure SheetRefs where
  links : List ((Nat × Nat) × Str) := []
  drawing : Option Str := none
  legacyDrawing : Option Str := none
  legacyDrawingHF : Option Str := none
  picture : Option Str := none
  tableParts : List Str := []
  vm : List Nat := []
deriving DecidableEq, Repr

/-- Parts whose contents are left out. -/
inductive Plain where
  | theme | styles | sharedStrings | core | app | custom | metadata | featurePropertyBag
  | rdRichValue | rdRichValueTypes | rdRichValueStructure
deriving DecidableEq, Repr

/-- A file of the package. -/
inductive Part where
  | types (defaults overrides : List (Str × Str))
  | rels (rels : List (Str × PRel))
  | workbook (sheets : List Str)
  | worksheet (refs : SheetRefs)
  | chartsheet (refs : SheetRefs)
  | drawing (objs : List DrawObj)
  | vml (notes buttons : Option Nat)
  | vmlImages (ids : List Str)
  | comments (notes : Nat)
  | chart (chart : Nat)
  | table (table : Nat)
  | media (data : List Nat)
  | richValueRel (ids : List Str)
  | vbaProject (data : List Nat)
  | vbaSignature (data : List Nat)
  | plain (kind : Plain)
deriving DecidableEq, Repr

/-- `HashMap<String, u32>`: `insert` replaces the value of a key that is present. -/
def hmapPut (k : Str) (v : Nat) : List (Str × Nat) → List (Str × Nat)
  | [] => [(k, v)]
  | (k', v') :: t => if k' = k then (k, v) :: t else (k', v') :: hmapPut k v t

/-- `format!("../media/image{image_id}.{}", …extension())`, /repo/src/worksheet.rs:16216, 16251, 16349,
/repo/src/packager.rs:611. -/
def imageTarget (id : Nat) (k : ImgType) : Str :=
  "../media/image".toList ++ showNat id ++ ".".toList ++ k.extension

/-- The relationship to an image. -/
def imageRel (id : Nat) (k : ImgType) : PRel := { type := "image".toList, target := imageTarget id k }

/-- The relationship of a link. -/
def PUrl.rel (u : PUrl) : PRel := { type := "hyperlink".toList, target := u.target, mode := u.mode }

/-- `prepare_embedded_images`, /repo/src/workbook.rs:2256-2285, inner loop: the images with their ids
so far, and the global ids of the sheet's images. -/
def prepEmbedded (ids : List (Str × Nat)) (all : List PImage) :
    List PImage → List (Str × Nat) × List PImage × List Nat
  | [] => (ids, all, [])
  | im :: t =>
    match ids.lookup im.hash with
    | some i =>
      let (ids, all, vm) := prepEmbedded ids all t
      (ids, all, i :: vm)
    | none =>
      let i := all.length + 1
      let (ids, all, vm) := prepEmbedded (hmapPut im.hash i ids) (all ++ [im]) t
      (ids, all, i :: vm)

/-- `prepare_embedded_images`, /repo/src/workbook.rs:2256-2285: the workbook's embedded images and the
global ids of every sheet. -/
def prepEmbeddeds (ids : List (Str × Nat)) (all : List PImage) :
    List PSheet → List PImage × List (List Nat)
  | [] => (all, [])
  | s :: t =>
    let (ids, all, vm) := prepEmbedded ids all s.embedded
    let (all, vms) := prepEmbeddeds ids all t
    (all, vm :: vms)

/-- The relationship and drawing lists of a sheet filled at save. -/
structure Prep where
  background : List PRel := []
  drawingObject : List PRel := []
  drawing : List PRel := []
  vmlDrawing : List PRel := []
  comment : List PRel := []
  table : List PRel := []
  objs : List DrawObj := []
  hfIds : List Str := []
deriving DecidableEq, Repr

/-- The maps and counters of `prepare_drawings`, /repo/src/workbook.rs:2289-2297. -/
structure DrawBook where
  chartId : Nat := 1
  drawingId : Nat := 1
  imageId : Nat
  worksheetIds : List (Str × Nat) := []
  headerIds : List (Str × Nat) := []
  backgroundIds : List (Str × Nat) := []
deriving DecidableEq, Repr

/-- `drawing_rel_ids` and `drawing_relationships` of a sheet. -/
structure RelIds where
  ids : List (Str × Nat) := []
  rels : List PRel := []
deriving DecidableEq, Repr

/-- The id of a key, with its relationship stored when the key is new, /repo/src/worksheet.rs:16185-16200,
16208-16225, 16276-16291. -/
def RelIds.get (r : RelIds) (key : Str) (rel : PRel) : RelIds × Nat :=
  match r.ids.lookup key with
  | some i => (r, i)
  | none => ({ ids := hmapPut key (1 + r.ids.length) r.ids, rels := r.rels ++ [rel] }, 1 + r.ids.length)

/-- The id of an optional link. -/
def RelIds.link (r : RelIds) : Option PUrl → RelIds × Option Str
  | none => (r, none)
  | some u =>
    let (r, i) := r.get u.link u.rel
    (r, some (relStr i))

/-- One image of `prepare_worksheet_images`, /repo/src/worksheet.rs:16164-16236: the image's id in the
workbook, the ids of its link and of itself in the drawing. -/
def prepImage (b : DrawBook) (r : RelIds) (im : PImage) : DrawBook × RelIds × DrawObj :=
  let (b, id) := match b.worksheetIds.lookup im.hash with
    | some i => (b, i)
    | none => ({ b with imageId := b.imageId + 1
                        worksheetIds := hmapPut im.hash (b.imageId + 1) b.worksheetIds },
               b.imageId + 1)
  let (r, l) := r.link im.url
  let (r, e) := r.get im.hash (imageRel id im.kind)
  (b, r, .pic (relStr e) l)

/-- The loop of `prepare_worksheet_images`, /repo/src/worksheet.rs:16164-16236. -/
def prepImages (b : DrawBook) (r : RelIds) : List PImage → DrawBook × RelIds × List DrawObj
  | [] => (b, r, [])
  | im :: t =>
    let (b, r, o) := prepImage b r im
    let (b, r, os) := prepImages b r t
    (b, r, o :: os)

/-- `format!("../charts/chart{chart_id}.xml")`, /repo/src/worksheet.rs:16497. -/
def chartTarget (id : Nat) : Str := "../charts/chart".toList ++ showNat id ++ ".xml".toList

/-- `prepare_worksheet_charts`, /repo/src/worksheet.rs:16479-16513, for `n` charts. -/
def prepCharts (r : RelIds) (chartId n : Nat) : RelIds × List DrawObj :=
  ({ ids := hmapPut "Chart".toList r.rels.length r.ids
     rels := r.rels ++ (List.range n).map fun k =>
       { type := "chart".toList, target := chartTarget (chartId + k) } },
   (List.range n).map fun k => .frame (relStr (r.rels.length + k + 1)))

/-- The loop of `prepare_worksheet_shapes`, /repo/src/worksheet.rs:16264-16307. -/
def prepShapes (r : RelIds) : List (Nat × Option PUrl) → RelIds × List DrawObj
  | [] => (r, [])
  | (sh, u) :: t =>
    let (r, l) := r.link u
    let (r, os) := prepShapes r t
    (r, .sp sh l :: os)

/-- `format!("../drawings/drawing{drawing_id}.xml")`, /repo/src/worksheet.rs:16239, 16311, 16525. -/
def drawingRel (id : Nat) : PRel :=
  { type := "drawing".toList, target := "../drawings/drawing".toList ++ showNat id ++ ".xml".toList }

/-- The loop of `prepare_header_footer_images`, /repo/src/worksheet.rs:16331-16370, with the workbook's
map, the sheet's own `rel_ids` and relationships. -/
def prepHeader (base : Nat) (ids relIds : List (Str × Nat)) (rels : List PRel) :
    List PImage → List (Str × Nat) × List PRel × List Str
  | [] => (ids, rels, [])
  | im :: t =>
    let (ids, id) := match ids.lookup im.hash with
      | some i => (ids, i)
      | none => (hmapPut im.hash (1 + base + ids.length) ids, 1 + base + ids.length)
    let (relIds, rels, e) := match relIds.lookup im.hash with
      | some i => (relIds, rels, i)
      | none => (hmapPut im.hash (1 + relIds.length) relIds, rels ++ [imageRel id im.kind],
                 1 + relIds.length)
    let (ids, rels, es) := prepHeader base ids relIds rels t
    (ids, rels, relStr e :: es)

/-- The background image, /repo/src/workbook.rs:2300-2313 and /repo/src/worksheet.rs:16250-16257. -/
def prepBackground (b : DrawBook) : Option PImage → DrawBook × List PRel
  | none => (b, [])
  | some im =>
    match b.backgroundIds.lookup im.hash with
    | some i => (b, [imageRel i im.kind])
    | none =>
      ({ b with imageId := b.imageId + 1
                backgroundIds := hmapPut im.hash (b.imageId + 1) b.backgroundIds },
       [imageRel (b.imageId + 1) im.kind])

/-- One sheet of `prepare_drawings`, /repo/src/workbook.rs:2299-2348. The link to the drawing part is
stored by the first of the images, charts and shapes (/repo/src/worksheet.rs:16240, 16310, 16524). -/
def prepDrawing (b : DrawBook) (s : PSheet) : DrawBook × Prep :=
  let (b, bg) := prepBackground b s.background
  let (b, r, pics) := prepImages b {} s.images
  let objRels := if s.images = [] then [] else [drawingRel b.drawingId]
  let (r, frames) := if s.charts = [] then (r, []) else prepCharts r b.chartId s.charts.length
  let objRels := if s.charts = [] ∨ s.images ≠ [] then objRels else [drawingRel b.drawingId]
  let b := { b with chartId := b.chartId + s.charts.length }
  let (r, sps) := prepShapes r s.shapes
  let objRels := if s.shapes ≠ [] ∧ objRels = [] then [drawingRel b.drawingId] else objRels
  let b := if s.hasDrawing then { b with drawingId := b.drawingId + 1 } else b
  let (hfIds, vmlRels, hfs) :=
    prepHeader (b.backgroundIds.length + b.worksheetIds.length) b.headerIds [] [] s.hf
  let b := { b with headerIds := hfIds }
  (b, { background := bg, drawingObject := objRels, drawing := r.rels, vmlDrawing := vmlRels
        objs := pics ++ frames ++ sps, hfIds := hfs })

/-- `prepare_drawings`, /repo/src/workbook.rs:2288-2349. -/
def prepDrawings (b : DrawBook) : List PSheet → List (PSheet × Prep)
  | [] => []
  | s :: t =>
    let (b, p) := prepDrawing b s
    (s, p) :: prepDrawings b t

/-- `add_vml_drawing_rel_link`, /repo/src/worksheet.rs:16374-16381. -/
def vmlRel (id : Nat) : PRel :=
  { type := "vmlDrawing".toList, target := "../drawings/vmlDrawing".toList ++ showNat id ++ ".vml".toList }

/-- `add_comment_rel_link`, /repo/src/worksheet.rs:16471-16475. -/
def commentRel (id : Nat) : PRel :=
  { type := "comments".toList, target := "../comments".toList ++ showNat id ++ ".xml".toList }

/-- The part of `prepare_vml` about links, /repo/src/workbook.rs:2222-2250. -/
def prepVmls (commentId vmlId : Nat) : List (PSheet × Prep) → List (PSheet × Prep)
  | [] => []
  | (s, p) :: t =>
    let (commentId, vmlId, p) :=
      if s.hasVml then
        let p := { p with drawingObject := p.drawingObject ++ [vmlRel vmlId] }
        if s.notes.isSome then
          (commentId + 1, vmlId + 1, { p with comment := p.comment ++ [commentRel commentId] })
        else (commentId, vmlId + 1, p)
      else (commentId, vmlId, p)
    let (vmlId, p) :=
      if s.hf ≠ [] then
        (vmlId + 1, { p with drawingObject := p.drawingObject ++ [vmlRel vmlId] })
      else (vmlId, p)
    (s, p) :: prepVmls commentId vmlId t

/-- The relationship to a table, /repo/src/worksheet.rs:16550-16554. -/
def tableRel (id : Nat) : PRel :=
  { type := "table".toList, target := "../tables/table".toList ++ showNat id ++ ".xml".toList }

/-- The part of `prepare_tables` about links, /repo/src/workbook.rs:2352-2375 and
/repo/src/worksheet.rs:16536-16560. -/
def prepTables (tableId : Nat) : List (PSheet × Prep) → List (PSheet × Prep)
  | [] => []
  | (s, p) :: t =>
    (s, { p with table := (List.range s.tables.length).map fun k => tableRel (tableId + k) }) ::
      prepTables (tableId + s.tables.length) t

/-- The sheets written: a workbook without any gets one, /repo/src/workbook.rs:2041-2043. -/
def PBook.allSheets (b : PBook) : List PSheet := if b.sheets = [] then [{}] else b.sheets

/-- The workbook's embedded images and the ids of every sheet. -/
def PBook.embeddeds (b : PBook) : List PImage × List (List Nat) := prepEmbeddeds [] [] b.allSheets

/-- The sheets with their lists after the preparations of `save_internal`,
/repo/src/workbook.rs:2167-2183. -/
def PBook.prepared (b : PBook) : List (PSheet × Prep) :=
  prepTables 1 (prepVmls 1 1 (prepDrawings { imageId := b.embeddeds.1.length } b.allSheets))

/-- The hyperlinks that have a relationship: `write_hyperlinks` with `increment_rel_id`,
/repo/src/worksheet.rs:17902-17914, 18171-18174, /repo/src/url.rs:487-495. -/
def linkRefs (n : Nat) : List ((Nat × Nat) × PUrl) → List ((Nat × Nat) × Str)
  | [] => []
  | (cell, u) :: t =>
    if u.internal then linkRefs n t else (cell, relStr n) :: linkRefs (n + 1) t

/-- `hyperlink_relationships`, /repo/src/worksheet.rs:18189-18193. -/
def PSheet.linkRels (s : PSheet) : List PRel :=
  (s.links.filter fun l => !l.2.internal).map fun l => l.2.rel

/-- `rel_count += 1` and the id written, if the element is written. -/
def nextRef (count : Nat) (written : Bool) : Nat × Option Str :=
  if written then (count + 1, some (relStr (count + 1))) else (count, none)

/-- The ids in a worksheet part, /repo/src/worksheet.rs:17412-17473, 17902-17914, 19450-19504 and
18562-18564. -/
def PSheet.refs (s : PSheet) (vm : List Nat) : SheetRefs :=
  let links := linkRefs 1 s.links
  let count := links.length
  let (count, drawing) := nextRef count s.hasDrawing
  let (count, legacy) := nextRef count s.hasVml
  let (count, hf) := nextRef count (!s.hf.isEmpty)
  let (count, picture) := nextRef count s.background.isSome
  { links := links, drawing := drawing, legacyDrawing := legacy, legacyDrawingHF := hf
    picture := picture
    tableParts := (List.range s.tables.length).map fun k => relStr (count + k + 1)
    vm := vm }

/-- The ids in a chartsheet part, /repo/src/worksheet.rs:17525-17533. -/
def PSheet.chartsheetRefs (s : PSheet) : SheetRefs :=
  let (count, drawing) := nextRef 0 s.hasDrawing
  let (_, hf) := nextRef count (!s.hf.isEmpty)
  { drawing := drawing, legacyDrawingHF := hf }

/-- A relationship file, /repo/src/relationship.rs:84-121: ids in list order, counted in a `u16`. -/
def relsPart (l : List PRel) : Part :=
  .rels (l.zipIdx.map fun (r, i) => (relStr ((i + 1) % 65536), r))

/-- `has_relationships`, /repo/src/worksheet.rs:16813-16818. The hyperlink relationships of a chartsheet
stay empty, because its XML has no `hyperlinks` element. -/
def hasRelationships (s : PSheet) (p : Prep) : Bool :=
  (!s.chartsheet && !s.linkRels.isEmpty) || !p.drawingObject.isEmpty || !p.table.isEmpty ||
    !p.background.isEmpty

/-- A zip entry. -/
abbrev Entry := Str × Part

/-- Items that are written get the next number; used for every loop of the packager with an index. -/
def numbered {α : Type} (used : α → Bool) (f : Nat → α → List Entry) : Nat → List α → List Entry
  | _, [] => []
  | n, a :: t => if used a then f n a ++ numbered used f (n + 1) t else numbered used f n t

/-- The worksheet files and their relationship files, /repo/src/packager.rs:147-159, 439-534. -/
def worksheetEntries (n : Nat) (x : (PSheet × Prep) × List Nat) : List Entry :=
  [("xl/worksheets/sheet".toList ++ showNat n ++ ".xml".toList, .worksheet (x.1.1.refs x.2))] ++
    (if hasRelationships x.1.1 x.1.2 then
      [("xl/worksheets/_rels/sheet".toList ++ showNat n ++ ".xml.rels".toList,
        relsPart (x.1.1.linkRels ++ x.1.2.drawingObject ++ x.1.2.background ++ x.1.2.table ++ x.1.2.comment))]
    else [])

/-- The chartsheet files and their relationship files, /repo/src/packager.rs:162-174, 486-496, 537-556. -/
def chartsheetEntries (n : Nat) (x : PSheet × Prep) : List Entry :=
  [("xl/chartsheets/sheet".toList ++ showNat n ++ ".xml".toList, .chartsheet x.1.chartsheetRefs)] ++
    (if hasRelationships x.1 x.2 then
      [("xl/chartsheets/_rels/sheet".toList ++ showNat n ++ ".xml.rels".toList,
        relsPart x.2.drawingObject)]
    else [])

/-- The drawing files, /repo/src/packager.rs:874-888. -/
def drawingEntries (n : Nat) (x : PSheet × Prep) : List Entry :=
  [("xl/drawings/drawing".toList ++ showNat n ++ ".xml".toList, .drawing x.2.objs)]

/-- The relationship files of the drawings, /repo/src/packager.rs:193-203, 559-578. -/
def drawingRelEntries (n : Nat) (x : PSheet × Prep) : List Entry :=
  if x.2.drawing.isEmpty then [] else
    [("xl/drawings/_rels/drawing".toList ++ showNat n ++ ".xml.rels".toList, relsPart x.2.drawing)]

/-- The VML files a sheet has: one for notes and buttons, one for the header and footer images. -/
inductive VmlItem where
  | objects (notes buttons : Option Nat)
  | images (ids : List Str) (rels : List PRel)
deriving DecidableEq, Repr

/-- The VML files of a sheet, /repo/src/packager.rs:916-956. -/
def vmlItems (x : PSheet × Prep) : List VmlItem :=
  (if x.1.hasVml then [.objects x.1.notes x.1.buttons] else []) ++
    (if x.1.hf ≠ [] then [.images x.2.hfIds x.2.vmlDrawing] else [])

/-- The entries of a VML file, /repo/src/packager.rs:918-955, 581-600. -/
def vmlEntries (n : Nat) : VmlItem → List Entry
  | .objects notes buttons =>
    [("xl/drawings/vmlDrawing".toList ++ showNat n ++ ".vml".toList, .vml notes buttons)]
  | .images ids rels =>
    [("xl/drawings/vmlDrawing".toList ++ showNat n ++ ".vml".toList, .vmlImages ids),
     ("xl/drawings/_rels/vmlDrawing".toList ++ showNat n ++ ".vml.rels".toList, relsPart rels)]

/-- The comment files, /repo/src/packager.rs:891-910. -/
def commentEntries (n : Nat) (s : PSheet) : List Entry :=
  match s.notes with
  | some c => [("xl/comments".toList ++ showNat n ++ ".xml".toList, .comments c)]
  | none => []

/-- The images not seen before, with the set of seen hashes, /repo/src/packager.rs:992-1003. -/
def newImages (seen : List Str) : List PImage → List PImage × List Str
  | [] => ([], seen)
  | im :: t =>
    if im.hash ∈ seen then newImages seen t
    else
      let (l, seen) := newImages (im.hash :: seen) t
      (im :: l, seen)

/-- The images of the sheets in writing order, /repo/src/packager.rs:978-1017, with the sets of the
hashes already written of the three kinds. -/
def sheetMedia (ws hf bg : List Str) : List PSheet → List PImage
  | [] => []
  | s :: t =>
    let (a, bg) := newImages bg s.background.toList
    let (b, ws) := newImages ws s.images
    let (c, hf) := newImages hf s.hf
    a ++ b ++ c ++ sheetMedia ws hf bg t

/-- An image file, /repo/src/packager.rs:970, 981, 994, 1007. -/
def mediaEntries (n : Nat) (im : PImage) : List Entry :=
  [("xl/media/image".toList ++ showNat n ++ ".".toList ++ im.kind.extension, .media im.data)]

/-- A chart file, /repo/src/packager.rs:1028. -/
def chartEntries (n : Nat) (c : Nat) : List Entry :=
  [("xl/charts/chart".toList ++ showNat n ++ ".xml".toList, .chart c)]

/-- A table file, /repo/src/packager.rs:1045. -/
def tableEntries (n : Nat) (t : Nat) : List Entry :=
  [("xl/tables/table".toList ++ showNat n ++ ".xml".toList, .table t)]

/-- `has_metadata`, /repo/src/workbook.rs:2768-2779. -/
def PBook.hasMetadata (b : PBook) : Bool :=
  b.allSheets.any fun s => s.dynamicArrays || !s.embedded.isEmpty

/-- `has_embedded_images`, /repo/src/workbook.rs:2773-2775. -/
def PBook.hasEmbedded (b : PBook) : Bool := b.allSheets.any fun s => !s.embedded.isEmpty

/-- `image_types`, /repo/src/workbook.rs:2824-2828 with /repo/src/worksheet.rs:15408, 16235, 16253, 16369. -/
def PBook.usesType (b : PBook) (k : ImgType) : Bool :=
  b.allSheets.any fun s =>
    (s.embedded ++ s.background.toList ++ s.images ++ s.hf).any fun im => im.kind == k

/-- A list of numbered overrides, /repo/src/packager.rs:253-275. -/
def overrides (n : Nat) (pre post type : Str) : List (Str × Str) :=
  (List.range n).map fun i => (pre ++ showNat (i + 1) ++ post, type)

/-- `write_content_types_file`, /repo/src/packager.rs:229-329, with the initial lists and the types of
/repo/src/content_types.rs:25-174 and the counts of /repo/src/workbook.rs:2752-2799. -/
def PBook.contentTypes (b : PBook) : Part :=
  let sheets := b.allSheets
  .types
    ([("rels".toList, "application/vnd.openxmlformats-package.relationships+xml".toList),
      ("xml".toList, "application/xml".toList)] ++
     (if sheets.any (fun s => s.hasVml || !s.hf.isEmpty) then
       [("vml".toList, "application/vnd.openxmlformats-officedocument.vmlDrawing".toList)] else []) ++
     (if b.usesType .png then [("png".toList, "image/png".toList)] else []) ++
     (if b.usesType .jpeg then [("jpeg".toList, "image/jpeg".toList)] else []) ++
     (if b.usesType .gif then [("gif".toList, "image/gif".toList)] else []) ++
     (if b.usesType .bmp then [("bmp".toList, "image/bmp".toList)] else []) ++
     (if b.vba.isSome then [("bin".toList, "application/vnd.ms-office.vbaProject".toList)] else []))
    ([("/docProps/app.xml".toList,
       "application/vnd.openxmlformats-officedocument.extended-properties+xml".toList),
      ("/docProps/core.xml".toList, "application/vnd.openxmlformats-package.core-properties+xml".toList),
      ("/xl/styles.xml".toList,
       "application/vnd.openxmlformats-officedocument.spreadsheetml.styles+xml".toList),
      ("/xl/theme/theme1.xml".toList, "application/vnd.openxmlformats-officedocument.theme+xml".toList)] ++
     (if b.vba.isSome then
       [("/xl/workbook.xml".toList, "application/vnd.ms-excel.sheet.macroEnabled.main+xml".toList)] ++
         (if b.signature.isSome then
           [("/xl/vbaProjectSignature.bin".toList,
             "application/vnd.ms-office.vbaProjectSignature".toList)] else [])
      else
       [("/xl/workbook.xml".toList,
         "application/vnd.openxmlformats-officedocument.spreadsheetml.sheet.main+xml".toList)]) ++
     overrides (sheets.filter fun s => !s.chartsheet).length "/xl/worksheets/sheet".toList ".xml".toList
       "application/vnd.openxmlformats-officedocument.spreadsheetml.worksheet+xml".toList ++
     overrides (sheets.filter fun s => s.chartsheet).length "/xl/chartsheets/sheet".toList ".xml".toList
       "application/vnd.openxmlformats-officedocument.spreadsheetml.chartsheet+xml".toList ++
     overrides (sheets.filter PSheet.hasDrawing).length "/xl/drawings/drawing".toList ".xml".toList
       "application/vnd.openxmlformats-officedocument.drawing+xml".toList ++
     overrides (sheets.map fun s => s.charts.length).sum "/xl/charts/chart".toList ".xml".toList
       "application/vnd.openxmlformats-officedocument.drawingml.chart+xml".toList ++
     overrides (sheets.map fun s => s.tables.length).sum "/xl/tables/table".toList ".xml".toList
       "application/vnd.openxmlformats-officedocument.spreadsheetml.table+xml".toList ++
     overrides (sheets.filter fun s => s.notes.isSome).length "/xl/comments".toList ".xml".toList
       "application/vnd.openxmlformats-officedocument.spreadsheetml.comments+xml".toList ++
     (if b.sst then [("/xl/sharedStrings.xml".toList,
       "application/vnd.openxmlformats-officedocument.spreadsheetml.sharedStrings+xml".toList)] else []) ++
     (if b.hasMetadata then [("/xl/metadata.xml".toList,
       "application/vnd.openxmlformats-officedocument.spreadsheetml.sheetMetadata+xml".toList)] else []) ++
     (if b.hasEmbedded then
       [("/xl/richData/rdRichValueTypes.xml".toList, "application/vnd.ms-excel.rdrichvaluetypes+xml".toList),
        ("/xl/richData/rdrichvalue.xml".toList, "application/vnd.ms-excel.rdrichvalue+xml".toList),
        ("/xl/richData/rdrichvaluestructure.xml".toList,
         "application/vnd.ms-excel.rdrichvaluestructure+xml".toList),
        ("/xl/richData/richValueRel.xml".toList, "application/vnd.ms-excel.richvaluerel+xml".toList)]
      else []) ++
     (if b.bags then [("/xl/featurePropertyBag/featurePropertyBag.xml".toList,
       "application/vnd.ms-excel.featurepropertybag+xml".toList)] else []) ++
     (if b.custom then [("/docProps/custom.xml".toList,
       "application/vnd.openxmlformats-officedocument.custom-properties+xml".toList)] else []))

/-- `write_root_rels_file`, /repo/src/packager.rs:332-348. -/
def PBook.rootRels (b : PBook) : List PRel :=
  [{ type := "officeDocument".toList, target := "xl/workbook.xml".toList },
   { type := "metadata/core-properties".toList, target := "docProps/core.xml".toList },
   { type := "extended-properties".toList, target := "docProps/app.xml".toList }] ++
  (if b.custom then [{ type := "custom-properties".toList, target := "docProps/custom.xml".toList }] else [])

/-- The sheets of the workbook's relationships, /repo/src/packager.rs:356-378. -/
def sheetRelList (ws cs : Nat) : List PSheet → List PRel
  | [] => []
  | s :: t =>
    if s.chartsheet then
      { type := "chartsheet".toList
        target := "chartsheets/sheet".toList ++ showNat cs ++ ".xml".toList } :: sheetRelList ws (cs + 1) t
    else
      { type := "worksheet".toList
        target := "worksheets/sheet".toList ++ showNat ws ++ ".xml".toList } :: sheetRelList (ws + 1) cs t

/-- `write_workbook_rels_file`, /repo/src/packager.rs:351-436. -/
def PBook.workbookRels (b : PBook) : List PRel :=
  sheetRelList 1 1 b.allSheets ++
  [{ type := "theme".toList, target := "theme/theme1.xml".toList },
   { type := "styles".toList, target := "styles.xml".toList }] ++
  (if b.sst then [{ type := "sharedStrings".toList, target := "sharedStrings.xml".toList }] else []) ++
  (if b.hasMetadata then [{ type := "sheetMetadata".toList, target := "metadata.xml".toList }] else []) ++
  (if b.vba.isSome then [{ type := "vbaProject".toList, target := "vbaProject.bin".toList }] else []) ++
  (if b.hasEmbedded then
    [{ type := "richValueRel".toList, target := "richData/richValueRel.xml".toList },
     { type := "rdRichValue".toList, target := "richData/rdrichvalue.xml".toList },
     { type := "rdRichValueStructure".toList, target := "richData/rdrichvaluestructure.xml".toList },
     { type := "rdRichValueTypes".toList, target := "richData/rdRichValueTypes.xml".toList }] else []) ++
  (if b.bags then [{ type := "FeaturePropertyBag".toList
                     target := "featurePropertyBag/featurePropertyBag.xml".toList }] else [])

/-- The ids of the sheets in workbook.xml, /repo/src/workbook.rs:2994-3005. -/
def PBook.sheetIds (b : PBook) : List Str :=
  (List.range b.allSheets.length).map fun i => relStr ((i + 1) % 65536)

/-- The relationships of the rich value part, /repo/src/packager.rs:603-624. -/
def richRels (images : List PImage) : List PRel :=
  images.zipIdx.map fun (im, i) => imageRel (i + 1) im.kind

/-- `assemble_file`, /repo/src/packager.rs:110-222: the zip entries in writing order. -/
def PBook.entries (b : PBook) : List Entry :=
  let all := b.prepared
  [("[Content_Types].xml".toList, b.contentTypes),
   ("_rels/.rels".toList, relsPart b.rootRels),
   ("xl/_rels/workbook.xml.rels".toList, relsPart b.workbookRels),
   ("xl/theme/theme1.xml".toList, .plain .theme),
   ("xl/styles.xml".toList, .plain .styles),
   ("xl/workbook.xml".toList, .workbook b.sheetIds)] ++
  numbered (fun x => !x.1.1.chartsheet) worksheetEntries 1 (all.zip b.embeddeds.2) ++
  numbered (fun x => x.1.chartsheet) chartsheetEntries 1 all ++
  (if b.sst then [("xl/sharedStrings.xml".toList, .plain .sharedStrings)] else []) ++
  [("docProps/core.xml".toList, .plain .core), ("docProps/app.xml".toList, .plain .app)] ++
  (if b.custom then [("docProps/custom.xml".toList, .plain .custom)] else []) ++
  numbered (fun x => !x.2.objs.isEmpty) drawingEntries 1 all ++
  numbered (fun _ => true) vmlEntries 1 (all.flatMap vmlItems) ++
  numbered (fun s => s.notes.isSome) commentEntries 1 b.allSheets ++
  numbered (fun _ => true) mediaEntries 1 (b.embeddeds.1 ++ sheetMedia [] [] [] b.allSheets) ++
  numbered (fun _ => true) chartEntries 1 (b.allSheets.flatMap PSheet.charts) ++
  numbered (fun _ => true) tableEntries 1 (b.allSheets.flatMap PSheet.tables) ++
  (match b.vba with
    | none => []
    | some v =>
      [("xl/vbaProject.bin".toList, .vbaProject v)] ++
      (match b.signature with
        | none => []
        | some g =>
          [("xl/vbaProjectSignature.bin".toList, .vbaSignature g),
           ("xl/_rels/vbaProject.bin.rels".toList,
            relsPart [{ type := "vbaProjectSignature".toList
                        target := "vbaProjectSignature.bin".toList }])])) ++
  numbered (fun x => !x.2.objs.isEmpty) drawingRelEntries 1 all ++
  (if b.hasMetadata then [("xl/metadata.xml".toList, .plain .metadata)] else []) ++
  (if b.hasEmbedded then
    [("xl/richData/_rels/richValueRel.xml.rels".toList, relsPart (richRels b.embeddeds.1)),
     ("xl/richData/rdrichvalue.xml".toList, .plain .rdRichValue),
     ("xl/richData/rdRichValueTypes.xml".toList, .plain .rdRichValueTypes),
     ("xl/richData/rdrichvaluestructure.xml".toList, .plain .rdRichValueStructure),
     ("xl/richData/richValueRel.xml".toList,
      .richValueRel ((List.range b.embeddeds.1.length).map fun i => relStr (i + 1)))] else []) ++
  (if b.bags then
    [("xl/featurePropertyBag/featurePropertyBag.xml".toList, .plain .featurePropertyBag)] else [])

end Verif
