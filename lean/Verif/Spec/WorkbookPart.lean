import Verif.Model.WorkbookPart
import Verif.Spec.DefinedNames
import Verif.Spec.View
import Verif.Spec.Cond
import Verif.Spec.Chart
/-!
How a reader sees a workbook part (ECMA-376 part 1, 18.2), and what the calls of the API asked for.
-/
namespace Verif.Spec
open Verif

/-- A `sheet` element, 18.2.19. -/
structure SheetSeen where
  name : Text
  id : Nat
  state : Visible
  rel : Text
deriving DecidableEq, Repr

/-- A workbook part. -/
structure WorkbookSeen where
  sheets : List SheetSeen
  activeTab : Nat
  names : List WrittenName
  readOnly : Bool
  codename : Option Text
deriving DecidableEq, Repr

/-- The state of a sheet, 18.18.68. -/
def readState : Option Text → Option Visible
  | none => some .default
  | some s =>
    if s = "visible".toList then some .default
    else if s = "hidden".toList then some .hidden
    else if s = "veryHidden".toList then some .veryHidden
    else none

/-- A `sheet` element. -/
def readSheetEl (e : NodeAttrs × List Node) : Option SheetSeen :=
  match e.1.lookup "name".toList, attrNat "sheetId".toList e.1, readState (e.1.lookup "state".toList),
    e.1.lookup "r:id".toList with
  | some n, some i, some s, some r => some ⟨n, i, s, r⟩
  | _, _, _, _ => none

/-- A number attribute that may be missing; the outer `Option` is `none` if it is no number. -/
def attrNat? (n : Text) (as : NodeAttrs) : Option (Option Nat) :=
  match as.lookup n with
  | none => some none
  | some v => (readNat v).map some

/-- A `definedName` element, 18.2.5. -/
def readDefinedName (e : NodeAttrs × List Node) : Option WrittenName :=
  match e.1.lookup "name".toList, attrNat? "localSheetId".toList e.1, attrFlag "hidden".toList false e.1,
    textOnly e.2 with
  | some n, some l, some h, some t => some ⟨n, l, h, t⟩
  | _, _, _, _ => none

/-- The defined names; none if there is no such element. -/
def readNames (ks : List Node) : Option (List WrittenName) :=
  match child "definedNames".toList ks with
  | none => some []
  | some c => (elems "definedName".toList c.2).mapM readDefinedName

/-- The active tab, 18.2.30: 0 if it is not given. -/
def readActiveTab (ks : List Node) : Option Nat :=
  match child "bookViews".toList ks with
  | none => some 0
  | some c =>
    match child "workbookView".toList c.2 with
    | none => none
    | some v => attrNatD "activeTab".toList 0 v.1

/-- Whether opening the workbook read-only is recommended, 18.2.12. -/
def readRecommended (ks : List Node) : Option Bool :=
  match child "fileSharing".toList ks with
  | none => some false
  | some e => attrFlag "readOnlyRecommended".toList false e.1

/-- A workbook part. -/
def readWorkbook : Node → Option WorkbookSeen
  | .text _ => none
  | .elem root _ ks =>
    if root ≠ "workbook".toList then none
    else
      match child "sheets".toList ks with
      | none => none
      | some c =>
        match (elems "sheet".toList c.2).mapM readSheetEl, readActiveTab ks, readNames ks,
          readRecommended ks with
        | some s, some a, some n, some r =>
          some { sheets := s, activeTab := a, names := n, readOnly := r
                 codename := (child "workbookPr".toList ks).bind fun e => e.1.lookup "codeName".toList }
        | _, _, _, _ => none

/-! ### What the calls ask for -/

instance (s : List Char) : Decidable (LegalName s) :=
  decidable_of_iff (s ≠ [] ∧ s.length ≤ 31 ∧ (∀ c ∈ s, c ≠ '*' ∧ c ≠ '?' ∧ c ≠ ':' ∧ c ≠ '[' ∧ c ≠ ']' ∧
      c ≠ '\\' ∧ c ≠ '/') ∧ s.head? ≠ some '\'' ∧ s.getLast? ≠ some '\'')
    ⟨fun h => ⟨h.1, h.2.1, h.2.2.1, h.2.2.2.1, h.2.2.2.2⟩, fun h => ⟨h.1, h.2, h.3, h.4, h.5⟩⟩

/-- A sheet: its name, the calls about its view, and the calls about its filter and printed area. -/
structure SheetAsk where
  chart : Bool := false
  name : List Char
  views : List ViewOp := []
  feats : List SheetNameOp := []
deriving DecidableEq, Repr

/-- The workbook: its sheets, the accepted calls of `define_name`, whether opening it read-only is recommended,
and its VBA name. -/
structure BookAsk where
  sheets : List SheetAsk := []
  defines : List (List Char × List Char) := []
  readOnly : Bool := false
  codename : Option (List Char) := none
deriving DecidableEq, Repr

/-- The number of sheets of a kind made by the workbook among the calls. -/
def addsIn (kind : WOp) (past : List WOp) : Nat := (past.filter fun o => decide (o = kind)).length

/-- One call, given the calls before it. Refused calls ask for nothing: a name that Excel does not
allow, a defined name or VBA name for which the call returns an error. -/
def BookAsk.step (U : Unicode) (past : List WOp) (a : BookAsk) : WOp → BookAsk
  | .add => { a with sheets := a.sheets ++ [{ name := "Sheet".toList ++ showNat (addsIn .add past + 1) }] }
  | .addChart =>
    { a with sheets := a.sheets ++ [{ chart := true, name := "Chart".toList ++ showNat (addsIn .addChart past + 1) }] }
  | .push name =>
    { a with sheets := a.sheets ++
        [{ name := if LegalName name then name else "Sheet".toList ++ showNat (a.sheets.length + 1) }] }
  | .setName i name =>
    if LegalName name then { a with sheets := a.sheets.modify i fun s => { s with name := name } } else a
  | .view i op => { a with sheets := a.sheets.modify i fun s => { s with views := s.views ++ [op] } }
  | .names i op => { a with sheets := a.sheets.modify i fun s => { s with feats := s.feats ++ [op] } }
  | .defineName name formula =>
    match Verif.defineName U name formula with
    | .ok _ => { a with defines := a.defines ++ [(name, formula)] }
    | _ => a
  | .readOnlyRecommended => { a with readOnly := true }
  | .addVbaProject => { a with codename := some (a.codename.getD "ThisWorkbook".toList) }
  | .setVbaName name => if validVbaName U name then { a with codename := some name } else a

/-- What a history asks for, from the calls before it. -/
def BookAsk.after (U : Unicode) (past : List WOp) (a : BookAsk) : List WOp → BookAsk
  | [] => a
  | o :: r => BookAsk.after U (past ++ [o]) (a.step U past o) r

/-- What a history asks for: a workbook without a sheet gets one. -/
def BookAsk.of (U : Unicode) (ops : List WOp) : BookAsk :=
  let a := BookAsk.after U [] {} ops
  if a.sheets = [] then { a with sheets := [{ name := "Sheet1".toList }] } else a

/-- The sheets of the workbook part: all sheets in order, numbered from 1, in the state their calls left them
in; the active one is visible. -/
def sheetsMeant (active : Nat) (sheets : List SheetAsk) : List SheetSeen :=
  sheets.mapIdx fun i s => ⟨s.name, i + 1, if i = active then .default else leftVisible s.views,
    "rId".toList ++ showNat (i + 1)⟩

/-- The texts of a call that go into the workbook part can be written in XML. -/
def callText : WOp → Bool
  | .push n => attrSafe n
  | .setName _ n => attrSafe n
  | .defineName n f => attrSafe n && attrSafe f
  | .setVbaName n => attrSafe n
  | _ => true

/-- The order of the children of `workbook`, 18.2.27 (those that are used). -/
def workbookOrder : List Text :=
  ["fileVersion".toList, "fileSharing".toList, "workbookPr".toList, "workbookProtection".toList,
   "bookViews".toList, "sheets".toList, "functionGroups".toList, "externalReferences".toList,
   "definedNames".toList, "calcPr".toList]

end Verif.Spec
