import Verif.Model.WorkbookPart
/-!
The document properties: `DocProperties` (/repo/src/properties.rs:343-616), and the parts `docProps/core.xml`
(/repo/src/core.rs), `docProps/app.xml` (/repo/src/app.rs, /repo/src/packager.rs:734-784) and `docProps/custom.xml`
(/repo/src/custom.rs).

Simplifications. A date is given by its text (`utc_datetime()`, see `Model/DateText.lean`), a floating point number
by the text `to_string()` gives for it.
-/
namespace Verif

/-- The value of a custom property, `CustomProperty`, /repo/src/properties.rs:624-707. -/
inductive CustomVal where
  | text (s : Str)
  | int (n : Int)
  | real (shown : Str)
  | bool (b : Bool)
  | datetime (shown : Str)
deriving DecidableEq, Repr

/-- `DocProperties`, /repo/src/properties.rs:343-382. -/
structure DocProps where
  author : Str := []
  title : Str := []
  comment : Str := []
  company : Str := []
  manager : Str := []
  status : Str := []
  subject : Str := []
  category : Str := []
  keywords : Str := []
  hyperlinkBase : Str := []
  creation : Str
  custom : List (Str × CustomVal) := []
deriving DecidableEq, Repr

/-- The calls of `DocProperties`. -/
inductive DocCall where
  | title (s : Str)
  | subject (s : Str)
  | manager (s : Str)
  | company (s : Str)
  | category (s : Str)
  | author (s : Str)
  | keywords (s : Str)
  | comment (s : Str)
  | status (s : Str)
  | hyperlinkBase (s : Str)
  | creation (shown : Str)
  | custom (name : Str) (v : CustomVal)
deriving DecidableEq, Repr

/-- The setters, /repo/src/properties.rs:393-615. -/
def DocProps.exec (p : DocProps) : DocCall → DocProps
  | .title s => { p with title := s }
  | .subject s => { p with subject := s }
  | .manager s => { p with manager := s }
  | .company s => { p with company := s }
  | .category s => { p with category := s }
  | .author s => { p with author := s }
  | .keywords s => { p with keywords := s }
  | .comment s => { p with comment := s }
  | .status s => { p with status := s }
  | .hyperlinkBase s => { p with hyperlinkBase := s }
  | .creation s => { p with creation := s }
  | .custom n v => { p with custom := p.custom ++ [(n, v)] }

/-- `DocProperties::new()` at a time with the text `now`, followed by calls. -/
def DocProps.run (now : Str) (calls : List DocCall) : DocProps :=
  calls.foldl DocProps.exec { creation := now }

/-- A text element that is written always (`xml_data_element`). -/
def always (t : Str) (d : Str) : List Tree := [.data t d []]

/-- A text element that is written unless it is empty, as in /repo/src/core.rs:89-93. -/
def unlessEmpty (t : Str) (d : Str) : List Tree := if d = [] then [] else [.data t d []]

/-- `write_dcterms_created` and `write_dcterms_modified`, /repo/src/core.rs:133-147. -/
def w3cdtf (t : Str) (d : Str) : List Tree := [.data t d [("xsi:type".toList, "dcterms:W3CDTF".toList)]]

/-- `Core::assemble_xml_file`, /repo/src/core.rs:39-172. -/
def coreTree (p : DocProps) : Tree :=
  .node "cp:coreProperties".toList
    [("xmlns:cp".toList, "http://schemas.openxmlformats.org/package/2006/metadata/core-properties".toList),
     ("xmlns:dc".toList, "http://purl.org/dc/elements/1.1/".toList),
     ("xmlns:dcterms".toList, "http://purl.org/dc/terms/".toList),
     ("xmlns:dcmitype".toList, "http://purl.org/dc/dcmitype/".toList),
     ("xmlns:xsi".toList, "http://www.w3.org/2001/XMLSchema-instance".toList)]
    (unlessEmpty "dc:title".toList p.title ++ (unlessEmpty "dc:subject".toList p.subject ++
     (always "dc:creator".toList p.author ++ (unlessEmpty "cp:keywords".toList p.keywords ++
      (unlessEmpty "dc:description".toList p.comment ++ (always "cp:lastModifiedBy".toList p.author ++
       (w3cdtf "dcterms:created".toList p.creation ++ (w3cdtf "dcterms:modified".toList p.creation ++
        (unlessEmpty "cp:category".toList p.category ++ unlessEmpty "cp:contentStatus".toList p.status)))))))))

/-- `to_string()` of an `i32`. -/
def showI32 (n : Int) : Str := if n < 0 then '-' :: showNat n.natAbs else showNat n.natAbs

/-- The value of a custom property, /repo/src/custom.rs:87-124. -/
def customValTree : CustomVal → Tree
  | .int n => .data "vt:i4".toList (showI32 n) []
  | .bool b => .data "vt:bool".toList (if b then "true".toList else "false".toList) []
  | .real s => .data "vt:r8".toList s []
  | .text s => .data "vt:lpwstr".toList s []
  | .datetime s => .data "vt:filetime".toList s []

/-- `write_property`, /repo/src/custom.rs:73-96. -/
def customTree1 (pid : Nat) (q : Str × CustomVal) : Tree :=
  .node "property".toList [("fmtid".toList, "{D5CDD505-2E9C-101B-9397-08002B2CF9AE}".toList),
    ("pid".toList, showNat pid), ("name".toList, q.1)] [customValTree q.2]

/-- `Custom::assemble_xml_file`, /repo/src/custom.rs:42-71. -/
def customTree (p : DocProps) : Tree :=
  .node "Properties".toList
    [("xmlns".toList, "http://schemas.openxmlformats.org/officeDocument/2006/custom-properties".toList),
     ("xmlns:vt".toList, "http://schemas.openxmlformats.org/officeDocument/2006/docPropsVTypes".toList)]
    (p.custom.mapIdx fun i q => customTree1 (i + 2) q)

/-- The custom properties part, if it is written, /repo/src/packager.rs:717-719. -/
def customPart (p : DocProps) : Option Str := if p.custom = [] then none else some (writePart (customTree p))

/-- `app_name`, /repo/src/worksheet.rs:20616-20630. -/
def DefName.appName (d : DefName) : Str :=
  match d.kind with
  | .local => d.quoted ++ '!' :: d.name
  | .printArea => d.quoted ++ "!Print_Area".toList
  | .autofilter => []
  | .printTitles => d.quoted ++ "!Print_Titles".toList
  | .global => if d.range.contains '!' then d.name else []

/-- The named ranges of app.xml, /repo/src/workbook.rs:2853-2859. -/
def appNames (names : List DefName) : List Str := (names.map DefName.appName).filter fun s => !s.isEmpty

/-- The names of the sheets of one kind that are not very hidden, /repo/src/packager.rs:745-769. -/
def appSheets (chart : Bool) (sheets : List WbSheet) : List Str :=
  (sheets.filter fun s => s.chart = chart ∧ s.view.visible ≠ .veryHidden).map (·.names.name)

/-- `add_heading_pair`, /repo/src/app.rs:43-47. -/
def addHeading (k : Str) (n : Nat) : List (Str × Nat) := if n > 0 then [(k, n)] else []

/-- The heading pairs, /repo/src/packager.rs:754, 767, 769-771. The counters are `u16`; the number of names is cast
to `u16`. -/
def appHeadings (b : List WbSheet) (names : List Str) : List (Str × Nat) :=
  addHeading "Worksheets".toList (appSheets false b).length ++
  (addHeading "Charts".toList (appSheets true b).length ++ addHeading "Named Ranges".toList (names.length % 65536))

/-- `write_heading_pairs`, /repo/src/app.rs:137-165. -/
def headingPairsTree (hs : List (Str × Nat)) : Tree :=
  .node "HeadingPairs".toList [] [.node "vt:vector".toList
    [("size".toList, showNat (hs.length * 2)), ("baseType".toList, "variant".toList)]
    (hs.flatMap fun h => [.node "vt:variant".toList [] [.data "vt:lpstr".toList h.1 []],
      .node "vt:variant".toList [] [.data "vt:i4".toList (showNat h.2) []]])]

/-- `write_titles_of_parts`, /repo/src/app.rs:168-190. -/
def titlesTree (ts : List Str) : Tree :=
  .node "TitlesOfParts".toList [] [.node "vt:vector".toList
    [("size".toList, showNat ts.length), ("baseType".toList, "lpstr".toList)]
    (ts.map fun t => .data "vt:lpstr".toList t [])]

/-- `App::assemble_xml_file`, /repo/src/app.rs:59-243. -/
def appTree (p : DocProps) (readOnly : Bool) (headings : List (Str × Nat)) (titles : List Str) : Tree :=
  .node "Properties".toList
    [("xmlns".toList, "http://schemas.openxmlformats.org/officeDocument/2006/extended-properties".toList),
     ("xmlns:vt".toList, "http://schemas.openxmlformats.org/officeDocument/2006/docPropsVTypes".toList)]
    (always "Application".toList "Microsoft Excel".toList ++
     (always "DocSecurity".toList (if readOnly then "2".toList else "0".toList) ++
      (always "ScaleCrop".toList "false".toList ++ ([headingPairsTree headings, titlesTree titles] ++
       (unlessEmpty "Manager".toList p.manager ++ (always "Company".toList p.company ++
        (always "LinksUpToDate".toList "false".toList ++ (always "SharedDoc".toList "false".toList ++
         (unlessEmpty "HyperlinkBase".toList p.hyperlinkBase ++ (always "HyperlinksChanged".toList "false".toList ++
          always "AppVersion".toList "12.0000".toList))))))))))

/-- The text of `docProps/app.xml` in a save, /repo/src/packager.rs:734-784. -/
def WBook.saveApp (U : Unicode) (b : WBook) (p : DocProps) : Res3 Str :=
  match (b.prepare U).2 with
  | .ok names =>
    let w := (b.prepare U).1
    .ok (writePart (appTree p w.readOnly (appHeadings w.sheets (appNames names))
      (appSheets false w.sheets ++ (appSheets true w.sheets ++ appNames names))))
  | .err => .err
  | .panic => .panic

end Verif
