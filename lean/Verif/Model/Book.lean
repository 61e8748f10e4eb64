import Verif.Model.Sheet
/-!
The workbook: shared tables and the parts of `save` that fix style indices and string ids.
/repo/src/workbook.rs:2038-2191 (`save_internal`), 2518-2536 (`format_xf_index`).
-/
namespace Verif
variable {Fmt : Type} [DecidableEq Fmt]

/-- `Workbook`: the worksheets, `string_table` and `xf_indices`, /repo/src/workbook.rs:323-356. -/
structure Book (Fmt : Type) where
  sheets : List (Sheet Fmt)
  sst : SST
  gxf : List (Fmt × Nat)

/-- A workbook with one new worksheet per configuration (`add_worksheet`,
`add_worksheet_with_constant_memory`, `add_worksheet_with_low_memory`,
/repo/src/workbook.rs:496-656; the workbook's format table starts with the default format,
/repo/src/workbook.rs:423). -/
def Book.new (cfgs : List Cfg) (merge : Fmt → Fmt → Fmt) (dflt : Fmt) : Book Fmt where
  sheets := cfgs.map fun c => Sheet.new c merge dflt
  sst := SST.new
  gxf := [(dflt, 0)]

/-- A call on worksheet `i`; the worksheet works on the shared tables (`Arc` clones,
/repo/src/workbook.rs:573, 646, 649). -/
def Book.exec (b : Book Fmt) (i : Nat) (op : Op Fmt) : Book Fmt :=
  match b.sheets[i]? with
  | none => b
  | some s =>
    let s' := (({ s with sst := b.sst, gxf := b.gxf } : Sheet Fmt).exec op).2
    ⟨b.sheets.set i s', s'.sst, s'.gxf⟩

/-- A history of calls on the worksheets, in any interleaving. -/
def Book.run (b : Book Fmt) (ops : List (Nat × Op Fmt)) : Book Fmt :=
  ops.foldl (fun b p => b.exec p.1 p.2) b

/-- `Workbook::format_xf_index`, /repo/src/workbook.rs:2518-2536. -/
def regFormat (g : List (Fmt × Nat)) (f : Fmt) : Nat × List (Fmt × Nat) :=
  match g.lookup f with
  | some i => (i, g)
  | none => (g.length, (f, g.length) :: g)

/-- The loop over one worksheet's formats, /repo/src/workbook.rs:2111-2115. -/
def regFormats : List Fmt → List (Fmt × Nat) → List Nat × List (Fmt × Nat)
  | [], g => ([], g)
  | f :: fs, g =>
    let r := regFormat g f
    let q := regFormats fs r.2
    (r.1 :: q.1, q.2)

/-- Register the formats of all worksheets and store the index maps,
/repo/src/workbook.rs:2100-2142. -/
def regSheets : List (Sheet Fmt) → List (Fmt × Nat) → List (Sheet Fmt) × List (Fmt × Nat)
  | [], g => ([], g)
  | s :: ss, g =>
    let r := regFormats s.xfFormats g
    let q := regSheets ss r.2
    ({ s with globalXf := r.1 } :: q.1, q.2)

/-- The string id loop over the worksheets, /repo/src/workbook.rs:2186-2191. -/
def idSheets : List (Sheet Fmt) → SST → List (Sheet Fmt) × SST
  | [], t => ([], t)
  | s :: ss, t =>
    let r := if s.cfg.globalSst then (s, t) else s.updateStringTableIds t
    let q := idSheets ss r.2
    (r.1 :: q.1, q.2)

/-- The part of `save_internal` before packaging.  `extra` stands for the formats the workbook
itself registers first (the hyperlink style, /repo/src/workbook.rs:2049-2056). -/
def Book.prepare (b : Book Fmt) (extra : List Fmt) : Book Fmt :=
  let g := (regFormats extra b.gxf).2
  let r := regSheets b.sheets g
  let q := idSheets r.1 b.sst
  ⟨q.1, q.2, r.2⟩

/-- The rows written for a worksheet: the data table, or in constant memory mode what has been
flushed to the temporary file plus the last flush (/repo/src/worksheet.rs:17330-17372,
/repo/src/packager.rs:447-460, `flush_last_row` before assembly). -/
def Sheet.rows (s : Sheet Fmt) : List (RowOut Fmt) :=
  if s.cfg.constMem then s.flushLastRow.out else s.writeDataTable

/-- The `<cellXfs>` list: the keys of the format table sorted by index,
/repo/src/workbook.rs:2130-2136.  `order` is the iteration order of the hash map. -/
def xfList (order : List (Fmt × Nat)) : List Fmt :=
  (order.mergeSort fun a b => decide (a.2 ≤ b.2)).map Prod.fst

/-- The `<si>` entries: the keys of the string table sorted by index,
/repo/src/shared_strings.rs:69-73. -/
def sstList (order : List (Str × Nat)) : List Str :=
  (order.mergeSort fun a b => decide (a.2 ≤ b.2)).map Prod.fst

end Verif
