import Verif.Model.DefinedNames
import Verif.Model.View
import Verif.Model.DataValid
import Verif.Model.Package
/-!
The workbook part `xl/workbook.xml`: the calls of the API that reach it, what a save does to them, and the XML
written by `assemble_xml_file` (/repo/src/workbook.rs:2870-3055).

Simplifications. Only what reaches the workbook part is kept. The other reasons for a save to fail (a
chartsheet without a chart, tables, charts and images, and the file system) are left out: `save` here is the
part of `save_internal` that prepares `workbook.xml`. Counters are unbounded, except the `u16` number of a
sheet in `write_sheets`, which wraps.
-/
namespace Verif

/-- The fields of `Worksheet` that reach the workbook part, /repo/src/worksheet.rs:1480-1530. -/
structure WbSheet where
  chart : Bool := false
  names : SheetNames
  view : SheetView := {}
deriving DecidableEq, Repr

/-- The fields of `Workbook` that reach the workbook part, /repo/src/workbook.rs:312-352. -/
structure WBook where
  sheets : List WbSheet := []
  numWorksheets : Nat := 0
  numChartsheets : Nat := 0
  firstSheet : Nat := 0
  activeTab : Nat := 0
  user : List DefName := []
  readOnly : Bool := false
  xlsm : Bool := false
  codename : Option Str := none
deriving DecidableEq, Repr

/-- The calls. A call on the sheet with index `i` does nothing if there is no such sheet
(`worksheet_from_index` returns an error). `push` stands for `push_worksheet` of a sheet on which
`set_name(name)` was called; calls made on a sheet before it is pushed are taken to be made after it. -/
inductive WOp where
  | add
  | addChart
  | push (name : Str)
  | setName (i : Nat) (name : Str)
  | view (i : Nat) (op : ViewOp)
  | names (i : Nat) (op : SheetNameOp)
  | defineName (name formula : Str)
  | readOnlyRecommended
  | addVbaProject
  | setVbaName (name : Str)
deriving DecidableEq, Repr

/-- `validate_vba_name`, /repo/src/utility.rs:933-963: `true` for `Ok(())`. -/
def validVbaName (U : Unicode) (name : Str) : Bool :=
  match name with
  | [] => false
  | c :: _ => decide (name.length ≤ 31) && name.all (fun c => U.alnum c || c = '_') && U.alpha c

/-- A new sheet with a name. -/
def WbSheet.named (chart : Bool) (name : Str) : WbSheet := { chart := chart, names := { name := name } }

/-- Execute one call: `add_worksheet` /repo/src/workbook.rs:496-507, `add_chartsheet` 882-893,
`push_worksheet` 1216-1223, `define_name` 1532-1584, `add_vba_project` 1777-1792, `set_vba_name` 1938-1944,
`read_only_recommended` 1981-1984; `set_name` /repo/src/worksheet.rs:2022-2031 and the other calls on a
worksheet in `Model/View.lean` and `Model/DefinedNames.lean`. A refused call changes nothing; a panic is
treated as a refused call. -/
def WBook.exec (U : Unicode) (b : WBook) : WOp → WBook
  | .add =>
    { b with sheets := b.sheets ++ [.named false ("Sheet".toList ++ showNat (b.numWorksheets + 1))]
             numWorksheets := b.numWorksheets + 1 }
  | .addChart =>
    { b with sheets := b.sheets ++ [.named true ("Chart".toList ++ showNat (b.numChartsheets + 1))]
             numChartsheets := b.numChartsheets + 1 }
  | .push name =>
    let name := if (validateSheetname name).isSome then [] else name
    let name := if name = [] then "Sheet".toList ++ showNat (b.sheets.length + 1) else name
    { b with sheets := b.sheets ++ [.named false name] }
  | .setName i name =>
    if (validateSheetname name).isSome then b
    else { b with sheets := b.sheets.modify i fun s => { s with names := { s.names with name := name } } }
  | .view i op => { b with sheets := b.sheets.modify i fun s => { s with view := s.view.exec op } }
  | .names i op => { b with sheets := b.sheets.modify i fun s => { s with names := s.names.exec op } }
  | .defineName name formula =>
    match Verif.defineName U name formula with
    | .ok d => { b with user := b.user ++ [d] }
    | _ => b
  | .readOnlyRecommended => { b with readOnly := true }
  | .addVbaProject =>
    { b with xlsm := true
             codename := if b.codename = none then some "ThisWorkbook".toList else b.codename }
  | .setVbaName name => if validVbaName U name then { b with codename := some name } else b

/-- A history of calls. -/
def WBook.run (U : Unicode) (b : WBook) (ops : List WOp) : WBook := ops.foldl (WBook.exec U) b

/-- `set_active_worksheets`, /repo/src/workbook.rs:2206-2219. -/
def WBook.activate (b : WBook) : WBook :=
  let r := activeLoop (b.sheets.map (·.view)) 0 (0, b.firstSheet)
  { b with sheets := b.sheets.modify r.1 fun s => { s with view := s.view.setActive true }
           firstSheet := r.2, activeTab := r.1 }

/-- `write_file_version`, /repo/src/workbook.rs:2917-2930. -/
def fileVersionTree (xlsm : Bool) : Tree :=
  .empty "fileVersion".toList ([("appName".toList, "xl".toList), ("lastEdited".toList, "4".toList),
    ("lowestEdited".toList, "4".toList), ("rupBuild".toList, "4505".toList)] ++
    attrIf xlsm "codeName".toList "{37E998C4-C9E5-D4B9-71C8-EB1FF731991C}".toList)

/-- `write_workbook_pr`, /repo/src/workbook.rs:2940-2950. -/
def workbookPrTree (codename : Option Str) : Tree :=
  .empty "workbookPr".toList (attrIf codename.isSome "codeName".toList (codename.getD []) ++
    [("defaultThemeVersion".toList, "124226".toList)])

/-- `write_book_views` and `write_workbook_view`, /repo/src/workbook.rs:2953-2983. -/
def bookViewsTree (b : WBook) : Tree :=
  .node "bookViews".toList [] [.empty "workbookView".toList
    ([("xWindow".toList, "240".toList), ("yWindow".toList, "15".toList),
      ("windowWidth".toList, "16095".toList), ("windowHeight".toList, "9660".toList)] ++
     (attrIf (decide (b.firstSheet > 0)) "firstSheet".toList (showNat (b.firstSheet + 1)) ++
      attrIf (decide (b.activeTab > 0)) "activeTab".toList (showNat b.activeTab)))]

/-- The `state` of `write_sheet`, /repo/src/workbook.rs:3009-3013. -/
def stateAttr : Visible → Attrs
  | .default => []
  | .hidden => [("state".toList, "hidden".toList)]
  | .veryHidden => [("state".toList, "veryHidden".toList)]

/-- `write_sheet`, /repo/src/workbook.rs:3003-3018. -/
def sheetTree (name : Str) (visible : Visible) (index : Nat) : Tree :=
  .empty "sheet".toList ([("name".toList, name), ("sheetId".toList, showNat index)] ++ (stateAttr visible ++
    [("r:id".toList, relStr index)]))

/-- `write_sheets`, /repo/src/workbook.rs:2986-3000. -/
def sheetsTree (sheets : List WbSheet) : Tree :=
  .node "sheets".toList [] (sheets.mapIdx fun i s => sheetTree s.names.name s.view.visible ((i + 1) % 65536))

/-- One element of `write_defined_names`, /repo/src/workbook.rs:3024-3044. -/
def definedNameTree (d : DefName) : Tree :=
  .data "definedName".toList d.range ([("name".toList, d.writtenName)] ++
    (attrIf (decide (d.kind ≠ .global)) "localSheetId".toList (showNat d.index) ++
     attrIf (decide (d.kind = .autofilter)) "hidden".toList "1".toList))

/-- `write_defined_names` when there are any, /repo/src/workbook.rs:2895-2897, 3021-3047. -/
def definedNamesTrees (names : List DefName) : List Tree :=
  if names.isEmpty then [] else [.node "definedNames".toList [] (names.map definedNameTree)]

/-- `assemble_xml_file`, /repo/src/workbook.rs:2871-2904, and `write_workbook`, `write_file_sharing`,
`write_calc_pr`. -/
def workbookTree (b : WBook) (names : List DefName) : Tree :=
  .node "workbook".toList
    [("xmlns".toList, "http://schemas.openxmlformats.org/spreadsheetml/2006/main".toList),
     ("xmlns:r".toList, "http://schemas.openxmlformats.org/officeDocument/2006/relationships".toList)]
    ([fileVersionTree b.xlsm] ++
     ((if b.readOnly then [.empty "fileSharing".toList [("readOnlyRecommended".toList, "1".toList)]] else []) ++
      ([workbookPrTree b.codename, bookViewsTree b, sheetsTree b.sheets] ++
       (definedNamesTrees names ++
        [.empty "calcPr".toList [("calcId".toList, "124519".toList), ("fullCalcOnLoad".toList, "1".toList)]]))))

/-- The sheets checked and the names prepared, /repo/src/workbook.rs:2041-2077, 2729-2864: the workbook as it is
left and its defined names. -/
def WBook.prepare (U : Unicode) (b : WBook) : WBook × Res3 (List DefName) :=
  let b := if b.sheets.isEmpty then b.exec U .add else b
  let b := b.activate
  (b, if duplicateLoop U (b.sheets.map (·.names.name)) [] then .err
      else saveNames U b.user (b.sheets.map (·.names)))

/-- The workbook part of a save: the workbook as it is left and the text of `xl/workbook.xml`. -/
def WBook.save (U : Unicode) (b : WBook) : WBook × Res3 Str :=
  let p := b.prepare U
  (p.1, match p.2 with
    | .ok names => .ok (writePart (workbookTree p.1 names))
    | .err => .err
    | .panic => .panic)

end Verif
