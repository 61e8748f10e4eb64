import Verif.Model.Book
/-!
Several saves of the same workbook: what a call of `save()` leaves behind in the workbook, whether
it succeeds or fails.  `Workbook::save*` take `&mut self` (/repo/src/workbook.rs:976-1078), so a
workbook can be edited and saved again.

Cell data only: what `save_internal` does to the format table, the string table and the cells
(/repo/src/workbook.rs:2036-2202).  The other per-save lists are in Model/SaveLists.lean.
-/
namespace Verif
variable {Fmt : Type} [DecidableEq Fmt]

/-- The workbook's own formats are registered first, /repo/src/workbook.rs:2049-2056. -/
def Book.registerExtra (b : Book Fmt) (extra : List Fmt) : Book Fmt :=
  { b with gxf := (regFormats extra b.gxf).2 }

/-- The formats of the worksheets are registered and the index maps stored,
/repo/src/workbook.rs:2100-2142. -/
def Book.registerSheets (b : Book Fmt) : Book Fmt :=
  ⟨(regSheets b.sheets b.gxf).1, b.sst, (regSheets b.sheets b.gxf).2⟩

/-- The string ids are assigned, /repo/src/workbook.rs:2186-2191. -/
def Book.assignIds (b : Book Fmt) : Book Fmt :=
  ⟨(idSheets b.sheets b.sst).1, (idSheets b.sheets b.sst).2, b.gxf⟩

/-- Writing a worksheet to the package: in constant memory mode the last row is flushed to the
temporary file (/repo/src/packager.rs:447-460); standard worksheets are not changed. -/
def Sheet.packaged (s : Sheet Fmt) : Sheet Fmt := if s.cfg.constMem then s.flushLastRow else s

/-- The packager has written the first `n` worksheets (/repo/src/packager.rs:96-110). -/
def Book.package (b : Book Fmt) (n : Nat) : Book Fmt :=
  { b with sheets := (b.sheets.take n).map Sheet.packaged ++ b.sheets.drop n }

/-- How far a call of `save()` came: `save_internal` can return an error

* `names` – at the sheet name or chartsheet check (/repo/src/workbook.rs:2068-2092);
* `content` – in `prepare_chart_cache_data` or `prepare_tables` (2177, 2183);
* `file n` – in the packager (2198-2201), after `n` worksheets were written;

* `done` – the call succeeds. -/
inductive SaveEnd where
  | names | content | file (n : Nat) | done
deriving DecidableEq

/-- What a call of `save()` that ends at `e` leaves in the workbook. -/
def Book.saved (b : Book Fmt) (extra : List Fmt) : SaveEnd → Book Fmt
  | .names => b.registerExtra extra
  | .content => (b.registerExtra extra).registerSheets
  | .file n => (b.prepare extra).package n
  | .done => (b.prepare extra).package b.sheets.length

/-- Something that happens to a workbook: a call on worksheet `i`, or a call of `save()`. -/
inductive Event (Fmt : Type) where
  | call (i : Nat) (op : Op Fmt)
  | save (extra : List Fmt) (result : SaveEnd)

/-- One event. -/
def Book.step (b : Book Fmt) : Event Fmt → Book Fmt
  | .call i op => b.exec i op
  | .save extra e => b.saved extra e

/-- A history of edits and saves. -/
def Book.history (b : Book Fmt) (evs : List (Event Fmt)) : Book Fmt := evs.foldl Book.step b

end Verif
