/-!
Sheet activation, selection and visibility: the worksheet setters
(/repo/src/worksheet.rs:12299-12487), `set_active_worksheets`
(/repo/src/workbook.rs:2206-2219) and the attributes written from them.
-/
namespace Verif

/-- `Visible`, /repo/src/worksheet.rs:20816-20820. -/
inductive Visible where
  | default | hidden | veryHidden
deriving DecidableEq, Repr

/-- The view fields of `Worksheet`, /repo/src/worksheet.rs:1495-1498. -/
structure SheetView where
  active : Bool := false
  selected : Bool := false
  visible : Visible := .default
  firstSheet : Bool := false
deriving DecidableEq, Repr

/-- The API calls. -/
inductive ViewOp where
  | setActive (enable : Bool)
  | setSelected (enable : Bool)
  | setHidden (enable : Bool)
  | setVeryHidden (enable : Bool)
  | setFirstTab (enable : Bool)
deriving DecidableEq, Repr

/-- `set_active`, /repo/src/worksheet.rs:12299-12309. -/
def SheetView.setActive (v : SheetView) (enable : Bool) : SheetView :=
  let v := { v with active := enable }
  if v.active then { v with selected := true, visible := .default } else v

/-- `set_selected`, /repo/src/worksheet.rs:12360-12369. -/
def SheetView.setSelected (v : SheetView) (enable : Bool) : SheetView :=
  let v := { v with selected := enable }
  if v.selected then { v with visible := .default } else v

/-- `set_hidden`, /repo/src/worksheet.rs:12420-12434. -/
def SheetView.setHidden (v : SheetView) (enable : Bool) : SheetView :=
  let v := if enable then { v with visible := .hidden } else { v with visible := .default }
  if v.visible = .hidden then { v with selected := false, active := false } else v

/-- `set_very_hidden`, /repo/src/worksheet.rs:12448-12462. -/
def SheetView.setVeryHidden (v : SheetView) (enable : Bool) : SheetView :=
  let v := if enable then { v with visible := .veryHidden } else { v with visible := .default }
  if v.visible = .veryHidden then { v with selected := false, active := false } else v

/-- `set_first_tab`, /repo/src/worksheet.rs:12479-12487. -/
def SheetView.setFirstTab (v : SheetView) (enable : Bool) : SheetView :=
  let v := { v with firstSheet := enable }
  if v.selected then { v with visible := .default } else v

def SheetView.exec (v : SheetView) : ViewOp → SheetView
  | .setActive b => v.setActive b
  | .setSelected b => v.setSelected b
  | .setHidden b => v.setHidden b
  | .setVeryHidden b => v.setVeryHidden b
  | .setFirstTab b => v.setFirstTab b

/-- `worksheets`, `first_sheet` and `active_tab` of `Workbook`. -/
structure BookView where
  sheets : List SheetView
  firstSheet : Nat := 0
  activeTab : Nat := 0
deriving DecidableEq, Repr

/-- The loop of `set_active_worksheets`, /repo/src/workbook.rs:2209-2216: sheets from index `i`
on; the pair is `(active_index, self.first_sheet)`. -/
def activeLoop : List SheetView → Nat → Nat × Nat → Nat × Nat
  | [], _, acc => acc
  | v :: vs, i, acc =>
    let acc := if v.active then (i, acc.2) else acc
    let acc := if v.firstSheet then (acc.1, i) else acc
    activeLoop vs (i + 1) acc

/-- `set_active_worksheets`, /repo/src/workbook.rs:2206-2219, preceded by adding a sheet to an
empty workbook (2041-2043). -/
def BookView.setActiveWorksheets (b : BookView) : BookView :=
  let sheets := if b.sheets = [] then [{}] else b.sheets
  let r := activeLoop sheets 0 (0, b.firstSheet)
  { sheets := sheets.modify r.1 (·.setActive true), firstSheet := r.2, activeTab := r.1 }

/-- A step in the life of a workbook: a call on the worksheet with index `i` (nothing if there is
no such sheet), a new worksheet, or a save. -/
inductive BookViewOp where
  | sheet (i : Nat) (op : ViewOp)
  | addSheet
  | save
deriving DecidableEq, Repr

def BookView.exec (b : BookView) : BookViewOp → BookView
  | .sheet i op => { b with sheets := b.sheets.modify i (·.exec op) }
  | .addSheet => { b with sheets := b.sheets ++ [{}] }
  | .save => b.setActiveWorksheets

def BookView.run (b : BookView) (ops : List BookViewOp) : BookView := ops.foldl BookView.exec b

/-- What the files say: the `activeTab` and `firstSheet` attributes of `<workbookView>`
(/repo/src/workbook.rs:2972-2980), and for each sheet `tabSelected`
(/repo/src/worksheet.rs:17721-17723) and the `state` attribute of `<sheet>`
(/repo/src/workbook.rs:3009-3013). -/
structure WrittenView where
  activeTab : Option Nat
  firstSheet : Option Nat
  sheets : List (Bool × Visible)
deriving DecidableEq, Repr

/-- The attributes written for a prepared workbook. -/
def BookView.written (b : BookView) : WrittenView where
  activeTab := if b.activeTab > 0 then some b.activeTab else none
  firstSheet := if b.firstSheet > 0 then some (b.firstSheet + 1) else none
  sheets := b.sheets.map fun v => (v.selected, v.visible)

end Verif
