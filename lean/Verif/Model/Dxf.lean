import Verif.Model.Style
/-!
Differential formats, for tables and conditional formats: numbering on a worksheet and in the workbook
(/repo/src/worksheet.rs:16091-16106, /repo/src/workbook.rs:2101-2126, 2538-2548), number format ids
(/repo/src/workbook.rs:2671-2705) and the `dxfs` element (/repo/src/styles.rs:798-834).
-/
namespace Verif

/-- `dxf_indices` and `dxf_formats` of a worksheet or the workbook, /repo/src/worksheet.rs (fields),
/repo/src/workbook.rs (fields). The hash map is a list of pairs. `is_dxf_format` is not kept: it is true
for all of them and equality does not look at it (/repo/src/format.rs:566-595). -/
structure DxfTable where
  indices : List (Format × Nat) := []
  formats : List Format := []
deriving DecidableEq, Repr

/-- `Worksheet::format_dxf_index`, /repo/src/worksheet.rs:16091-16106 (without `has_hyperlink_style`), and
`Workbook::format_dxf_index`, /repo/src/workbook.rs:2538-2548: the number of a format and the table. -/
def DxfTable.formatDxfIndex (t : DxfTable) (f : Format) : Nat × DxfTable :=
  match t.indices.lookup f with
  | some i => (i, t)
  | none =>
    (t.formats.length, { indices := (f, t.formats.length) :: t.indices, formats := t.formats ++ [f] })

/-- The loop /repo/src/workbook.rs:2121-2124; on a worksheet, the calls of `format_dxf_index` from
`add_table` and `add_conditional_format` (/repo/src/worksheet.rs:8834-8837, 9055-9057). -/
def DxfTable.addAll (t : DxfTable) : List Format → List Nat × DxfTable
  | [] => ([], t)
  | f :: fs =>
    let r := t.formatDxfIndex f
    let q := r.2.addAll fs
    (r.1 :: q.1, q.2)

/-- /repo/src/workbook.rs:2118-2126 over the worksheets' `dxf_formats`: the lists given to
`set_global_dxf_indices` (2143) and the table of the workbook. -/
def DxfTable.addSheets (t : DxfTable) : List (List Format) → List (List Nat) × DxfTable
  | [] => ([], t)
  | s :: ss =>
    let r := t.addAll s
    let q := r.2.addSheets ss
    (r.1 :: q.1, q.2)

/-- The cell formats before `prepare_num_formats`, /repo/src/workbook.rs:2551-2562. -/
def preparedXf (fs : List Format) : List PFormat :=
  (prepareBorders (prepareFills (prepareFonts (fs.map fun f => { fmt := f })).1).1).1

/-- `prepare_num_formats`, /repo/src/workbook.rs:2671-2705, for the differential formats: the loop runs
over the cell formats and then over these, with the same table and numbers. (The strings first met here
are not put in `num_formats`, so that list is the one of `prepareStyles`.) -/
def numberDxfs (fs ds : List Format) : List Format :=
  ((numFormatLoop [] 164 [] (preparedXf fs ++ ds.map fun f => { fmt := f })).1.drop fs.length).map (·.fmt)

/-- `has_dxf_font`, /repo/src/format.rs:2451-2457. -/
def Font.hasDxf (f : Font) : Bool :=
  f.bold || f.italic || decide (f.underline ≠ .none) || f.strikethrough || !f.color.isAutoOrDefault

/-- `has_dxf_fill`, /repo/src/format.rs:2460-2464. -/
def Fill.hasDxf (f : Fill) : Bool :=
  decide (f.pattern ≠ .none) || !f.backgroundColor.isAutoOrDefault || !f.foregroundColor.isAutoOrDefault

/-- `write_dxf_format_extensions`, /repo/src/styles.rs:894-910. -/
def dxfExtTree : Tree :=
  .node "extLst".toList []
    [.node "ext".toList
      [("uri".toList, "{0417FA29-78FA-4A13-93AC-8FF0FAFDF519}".toList),
       ("xmlns:xfpb".toList,
        "http://schemas.microsoft.com/office/spreadsheetml/2022/featurepropertybag".toList)]
      [.empty "xfpb:DXFComplement".toList [("i".toList, "0".toList)]]]

/-- One `dxf` element, /repo/src/styles.rs:807-829. `has_border` is set in `prepare_borders`
(/repo/src/workbook.rs:2665-2667). -/
def dxfTree (f : Format) : Tree :=
  .node "dxf".toList []
    (optTree f.font.hasDxf (fontTree f.font true) ++
     optTree (f.numFormatIndex > 0) (numFmtTree f.numFormatIndex f.numFormat) ++
     optTree f.fill.hasDxf (fillTree f.fill true) ++
     optTree (f.borders ≠ {}) (borderTree f.borders true) ++
     optTree f.checkbox dxfExtTree)

/-- `write_dxfs`, /repo/src/styles.rs:798-834. -/
def dxfsTree (ds : List Format) : Tree :=
  if ds = [] then .empty "dxfs".toList [("count".toList, showNat 0)]
  else .node "dxfs".toList [("count".toList, showNat ds.length)] (ds.map dxfTree)

/-- The part of a save about differential formats, /repo/src/workbook.rs:2118-2143, 2180 and
/repo/src/packager.rs:670-680: the workbook's table before the save, the cell formats and the
`dxf_formats` of the worksheets give the numbers for the worksheets and the table after it (its
formats keep their number format ids, its keys do not change). -/
def DxfTable.save (t : DxfTable) (fs : List Format) (sheets : List (List Format)) :
    List (List Nat) × DxfTable :=
  let r := t.addSheets sheets
  (r.1, { r.2 with formats := numberDxfs fs r.2.formats })

end Verif
