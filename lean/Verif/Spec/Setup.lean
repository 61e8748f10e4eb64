import Verif.Model.Setup
import Verif.Spec.DataValid
import Verif.Spec.Ref
import Verif.Spec.Misc
import Verif.Spec.Chart
import Verif.Spec.CondFormula
import Verif.Spec.Style
import Verif.Spec.Misc
/-!
Printing, view and protection of a worksheet: how a reader sees them (ECMA-376, 18.3.1) and what the calls mean (C59 to C63).
-/
namespace Verif.Spec

/-! ### Headers and footers -/

/-- The variables of headers and footers, with the letter of their code. -/
def hfNames : List (Text × Char) :=
  [("Tab".toList, 'A'), ("Date".toList, 'D'), ("File".toList, 'F'), ("Page".toList, 'P'), ("Path".toList, 'Z'), ("Time".toList, 'T'),
   ("Pages".toList, 'N'), ("Picture".toList, 'G')]

/-- A part of a header: a character, or a code such as `&P` or `&L`; the code `&&` is the character `&`. -/
inductive HfPart where
  | char (c : Char)
  | code (c : Char)
deriving DecidableEq

/-- The rest of a text behind a prefix. -/
def afterPrefix : Text → Text → Option Text
  | [], s => some s
  | _ :: _, [] => none
  | p :: ps, c :: s => if p = c then afterPrefix ps s else none

/-- The variable at the start of a text behind `&`: its letter and the rest. -/
def hfVariable (names : List (Text × Char)) (s : Text) : Option (Char × Text) :=
  names.findSome? fun n => (afterPrefix ('[' :: n.1 ++ [']']) s).map fun r => (n.2, r)

/-- A header in parts: `&` and a letter are a code, `&[Name]` is the code of the variable.
The first argument is fuel. -/
def hfPartsN (names : List (Text × Char)) : Nat → Text → List HfPart
  | 0, _ => []
  | _, [] => []
  | n + 1, c :: s =>
    if c = '&' then
      match hfVariable names s with
      | some (l, r) => .code l :: hfPartsN names n r
      | none =>
        match s with
        | [] => [.char '&']
        | d :: s => .code d :: hfPartsN names n s
    else .char c :: hfPartsN names n s

/-- A header in parts. In a file there are no names of variables; in the text of a user there may be. -/
def hfParts (names : List (Text × Char)) (s : Text) : List HfPart := hfPartsN names s.length s

/-- A text has another one in it. -/
def Within (p s : Text) : Prop := ∃ a b, s = a ++ p ++ b

/-! ### Printing -/

/-- How large the pages are printed. -/
inductive Scaling where
  | percent (n : Nat)
  | fit (width height : Nat)
deriving DecidableEq

/-- The page settings as a reader sees them. -/
structure PageSeen where
  paper : Nat
  landscape : Bool
  scaling : Scaling
  overThenDown : Bool
  firstPage : Option Nat
  blackAndWhite : Bool
  draft : Bool
  left : Text
  right : Text
  top : Text
  bottom : Text
  headerMargin : Text
  footerMargin : Text
  centerHorizontally : Bool
  centerVertically : Bool
  headings : Bool
  gridlines : Bool
  header : List HfPart
  footer : List HfPart
  scaleWithDoc : Bool
  alignWithMargins : Bool
deriving DecidableEq

/-- The attributes of a child element, none if there is no such child. -/
def attrsOf (t : Text) (ks : List Node) : NodeAttrs := ((child t ks).map (·.1)).getD []

/-- The children of a child element. -/
def kidsOf (t : Text) (ks : List Node) : List Node := ((child t ks).map (·.2)).getD []

/-- What is read from the children of the root element, which must have the tag. -/
def inRoot {α : Type} (tag : Text) (read : List Node → Option α) : Node → Option α
  | .elem t _ ks => if t = tag then read ks else none
  | .text _ => none

/-- The scaling: to pages if the element `pageSetUpPr` says so. -/
def readScaling (ks : List Node) : Option Scaling :=
  match attrFlag "fitToPage".toList false (attrsOf "pageSetUpPr".toList (kidsOf "sheetPr".toList ks)),
      attrNatD "scale".toList 100 (attrsOf "pageSetup".toList ks), attrNatD "fitToWidth".toList 1 (attrsOf "pageSetup".toList ks),
      attrNatD "fitToHeight".toList 1 (attrsOf "pageSetup".toList ks) with
  | some true, some _, some w, some h => some (.fit w h)
  | some false, some n, some _, some _ => some (.percent n)
  | _, _, _, _ => none

/-- The orientation of the page. -/
def readLandscape (as : NodeAttrs) : Option Bool :=
  match as.lookup "orientation".toList with
  | none => some false
  | some o =>
    if o = "landscape".toList then some true
    else if o = "portrait".toList ∨ o = "default".toList then some false
    else none

/-- The order of the pages. -/
def readPageOrder (as : NodeAttrs) : Option Bool :=
  match as.lookup "pageOrder".toList with
  | none => some false
  | some o => if o = "overThenDown".toList then some true else if o = "downThenOver".toList then some false else none

/-- The number of the first page: that of the attribute, if it is to be used. -/
def readFirstPage (as : NodeAttrs) : Option (Option Nat) :=
  match attrFlag "useFirstPageNumber".toList false as, attrNatD "firstPageNumber".toList 1 as with
  | some true, some n => some (some n)
  | some false, some _ => some none
  | _, _ => none

/-- A header or footer; the text of the element is escaped like all texts. -/
def readHf (t : Text) (ks : List Node) : Option (List HfPart) :=
  match child t (kidsOf "headerFooter".toList ks) with
  | none => some []
  | some e => (textOnly e.2).map (hfParts [])

/-- The page settings of a worksheet. -/
def readPage (ks : List Node) : Option PageSeen :=
  match attrNatD "paperSize".toList 0 (attrsOf "pageSetup".toList ks), readLandscape (attrsOf "pageSetup".toList ks), readScaling ks,
      readPageOrder (attrsOf "pageSetup".toList ks), readFirstPage (attrsOf "pageSetup".toList ks) with
  | some paper, some landscape, some scaling, some order, some first =>
    match attrFlag "blackAndWhite".toList false (attrsOf "pageSetup".toList ks),
        attrFlag "draft".toList false (attrsOf "pageSetup".toList ks),
        attrFlag "horizontalCentered".toList false (attrsOf "printOptions".toList ks),
        attrFlag "verticalCentered".toList false (attrsOf "printOptions".toList ks),
        attrFlag "headings".toList false (attrsOf "printOptions".toList ks),
        attrFlag "gridLines".toList false (attrsOf "printOptions".toList ks) with
    | some bw, some draft, some ch, some cv, some hd, some gl =>
      match (attrsOf "pageMargins".toList ks).lookup "left".toList, (attrsOf "pageMargins".toList ks).lookup "right".toList,
          (attrsOf "pageMargins".toList ks).lookup "top".toList, (attrsOf "pageMargins".toList ks).lookup "bottom".toList,
          (attrsOf "pageMargins".toList ks).lookup "header".toList, (attrsOf "pageMargins".toList ks).lookup "footer".toList with
      | some l, some r, some t, some b, some hm, some fm =>
        match readHf "oddHeader".toList ks, readHf "oddFooter".toList ks,
            attrFlag "scaleWithDoc".toList true (attrsOf "headerFooter".toList ks),
            attrFlag "alignWithMargins".toList true (attrsOf "headerFooter".toList ks) with
        | some h, some f, some sd, some am =>
          some ⟨paper, landscape, scaling, order, first, bw, draft, l, r, t, b, hm, fm, ch, cv, hd, gl, h, f, sd, am⟩
        | _, _, _, _ => none
      | _, _, _, _, _, _ => none
    | _, _, _, _, _, _ => none
  | _, _, _, _, _ => none

/-- A header that Excel allows: at most 255 characters, where a variable counts as its code. -/
def hfLength (t : Text) : Nat :=
  ((hfParts hfNames t).map fun p => match p with | .char _ => 1 | .code _ => 2).sum

/-- The page settings after calls: the last call of each kind counts; scales from 10 to 400 percent and fitting to pages
replace each other. -/
def pageMeant (calls : List SetupCall) : PageSeen where
  paper := lastSaid (fun c => match c with | .paperSize n => some n | _ => none) 0 calls
  landscape := lastSaid (fun c => match c with | .landscape => some true | .portrait => some false | _ => none) false calls
  scaling := lastSaid (fun c => match c with
    | .printScale n => if 10 ≤ n ∧ n ≤ 400 then some (.percent n) else none
    | .fitToPages w h => some (.fit w h)
    | _ => none) (.percent 100) calls
  overThenDown := lastSaid (fun c => match c with | .pageOrder b => some !b | _ => none) false calls
  firstPage := lastSaid (fun c => match c with | .firstPageNumber n => some (some n) | _ => none) none calls
  blackAndWhite := lastSaid (fun c => match c with | .blackAndWhite b => some b | _ => none) false calls
  draft := lastSaid (fun c => match c with | .draft b => some b | _ => none) false calls
  left := lastSaid (fun c => match c with | .margins l _ _ _ _ _ => l | _ => none) "0.7".toList calls
  right := lastSaid (fun c => match c with | .margins _ r _ _ _ _ => r | _ => none) "0.7".toList calls
  top := lastSaid (fun c => match c with | .margins _ _ t _ _ _ => t | _ => none) "0.75".toList calls
  bottom := lastSaid (fun c => match c with | .margins _ _ _ b _ _ => b | _ => none) "0.75".toList calls
  headerMargin := lastSaid (fun c => match c with | .margins _ _ _ _ h _ => h | _ => none) "0.3".toList calls
  footerMargin := lastSaid (fun c => match c with | .margins _ _ _ _ _ f => f | _ => none) "0.3".toList calls
  centerHorizontally := lastSaid (fun c => match c with | .centerHorizontally b => some b | _ => none) false calls
  centerVertically := lastSaid (fun c => match c with | .centerVertically b => some b | _ => none) false calls
  headings := lastSaid (fun c => match c with | .headings b => some b | _ => none) false calls
  gridlines := lastSaid (fun c => match c with | .printGridlines b => some b | _ => none) false calls
  header := hfParts hfNames (lastSaid (fun c => match c with
    | .header t => if hfLength t ≤ 255 then some t else none
    | _ => none) [] calls)
  footer := hfParts hfNames (lastSaid (fun c => match c with
    | .footer t => if hfLength t ≤ 255 then some t else none
    | _ => none) [] calls)
  scaleWithDoc := lastSaid (fun c => match c with | .headerFooterScaleWithDoc b => some b | _ => none) true calls
  alignWithMargins := lastSaid (fun c => match c with | .headerFooterAlignWithPage b => some b | _ => none) true calls

/-! ### View -/

/-- The way a sheet is shown. -/
inductive ViewMode where
  | normal | pageLayout | pageBreakPreview
deriving DecidableEq

/-- Frozen panes: the numbers of rows and columns that stay, the first cell shown below and right of them, and the active
pane. -/
structure PanesSeen where
  rows : Nat
  cols : Nat
  topLeft : Nat × Nat
  active : Text
deriving DecidableEq

/-- A cell and a range, both counted from 0. -/
abbrev SelectionSeen := (Nat × Nat) × ((Nat × Nat) × (Nat × Nat))

/-- The view of a sheet as a reader sees it. -/
structure ViewSeen where
  gridlines : Bool
  rightToLeft : Bool
  mode : ViewMode
  zoom : Nat
  topLeft : Nat × Nat
  panes : Option PanesSeen
  selection : SelectionSeen
deriving DecidableEq

/-- The attribute `view`, 18.18.69. -/
def readMode (as : NodeAttrs) : Option ViewMode :=
  match as.lookup "view".toList with
  | none => some .normal
  | some v =>
    if v = "normal".toList then some .normal else if v = "pageLayout".toList then some .pageLayout
    else if v = "pageBreakPreview".toList then some .pageBreakPreview else none

/-- A cell attribute that may be missing. -/
def attrCellD (n : Text) (as : NodeAttrs) : Option (Nat × Nat) :=
  match as.lookup n with
  | none => some (0, 0)
  | some v => readA1 v

/-- A range attribute that may be missing. -/
def attrRangeD (n : Text) (as : NodeAttrs) : Option ((Nat × Nat) × (Nat × Nat)) :=
  match as.lookup n with
  | none => some ((0, 0), (0, 0))
  | some v => readRange v

/-- The element `pane`, 18.3.1.66, with frozen rows and columns. -/
def readPanes (ks : List Node) : Option (Option PanesSeen) :=
  match child "pane".toList ks with
  | none => some none
  | some e =>
    if e.1.lookup "state".toList = some "frozen".toList then
      match attrNatD "ySplit".toList 0 e.1, attrNatD "xSplit".toList 0 e.1, attrCellD "topLeftCell".toList e.1 with
      | some r, some c, some t => some (some ⟨r, c, t, (e.1.lookup "activePane".toList).getD "topLeft".toList⟩)
      | _, _, _ => none
    else none

/-- The name of the pane that is active. -/
def activePane (panes : Option PanesSeen) : Text := (panes.map (·.active)).getD "topLeft".toList

/-- The selection in a pane: that of the first element `selection` (18.3.1.78) for this pane. -/
def readSelection (pane : Text) (ks : List Node) : Option SelectionSeen :=
  match (elems "selection".toList ks).find? fun e => decide ((e.1.lookup "pane".toList).getD "topLeft".toList = pane) with
  | none => some ((0, 0), ((0, 0), (0, 0)))
  | some e =>
    match attrCellD "activeCell".toList e.1, attrRangeD "sqref".toList e.1 with
    | some c, some r => some (c, r)
    | _, _ => none

/-- The view: the selection is that of the active pane. -/
def readView (ks : List Node) : Option ViewSeen :=
  match child "sheetView".toList (kidsOf "sheetViews".toList ks) with
  | none => none
  | some e =>
    match attrFlag "showGridLines".toList true e.1, attrFlag "rightToLeft".toList false e.1, readMode e.1,
        attrNatD "zoomScale".toList 100 e.1, attrCellD "topLeftCell".toList e.1, readPanes e.2 with
    | some g, some r, some m, some z, some t, some p => (readSelection (activePane p) e.2).map fun s => ⟨g, r, m, z, t, p, s⟩
    | _, _, _, _, _, _ => none

/-- A cell that is on a sheet. -/
def OnSheet (r c : Nat) : Prop := r < 1048576 ∧ c < 16384

instance (r c : Nat) : Decidable (OnSheet r c) := inferInstanceAs (Decidable (_ ∧ _))

/-- The pane that is active when rows or columns are frozen: the one below and right of them. -/
def paneName (rows cols : Nat) : Text :=
  if rows = 0 then "topRight".toList else if cols = 0 then "bottomLeft".toList else "bottomRight".toList

/-- The cell of the last call that froze panes. -/
def frozenAt (calls : List SetupCall) : Nat × Nat :=
  lastSaid (fun c => match c with | .freezePanes r c => if OnSheet r c then some (r, c) else none | _ => none) (0, 0) calls

/-- The first cell that is shown below and right of frozen panes; (0, 0) stands for the one next to them. -/
def frozenTop (calls : List SetupCall) : Nat × Nat :=
  lastSaid (fun c => match c with | .freezePanesTopCell r c => if OnSheet r c then some (r, c) else none | _ => none) (0, 0) calls

/-- Frozen panes after calls. -/
def panesMeant (calls : List SetupCall) : Option PanesSeen :=
  if frozenAt calls = (0, 0) then none
  else some ⟨(frozenAt calls).1, (frozenAt calls).2, if frozenTop calls = (0, 0) then frozenAt calls else frozenTop calls,
    paneName (frozenAt calls).1 (frozenAt calls).2⟩

/-- The selection after calls: the first cell of the call is the active one. -/
def selectionMeant (calls : List SetupCall) : SelectionSeen :=
  lastSaid (fun c => match c with
    | .selection r1 c1 r2 c2 =>
      if OnSheet r1 c1 ∧ OnSheet r2 c2 then some ((r1, c1), ((min r1 r2, min c1 c2), (max r1 r2, max c1 c2))) else none
    | _ => none) ((0, 0), ((0, 0), (0, 0))) calls

/-- The view after calls. -/
def viewMeant (calls : List SetupCall) : ViewSeen where
  gridlines := lastSaid (fun c => match c with | .screenGridlines b => some b | _ => none) true calls
  rightToLeft := lastSaid (fun c => match c with | .rightToLeft b => some b | _ => none) false calls
  mode := lastSaid (fun c => match c with
    | .viewNormal => some .normal | .viewPageLayout => some .pageLayout | .viewPageBreakPreview => some .pageBreakPreview
    | _ => none) .normal calls
  zoom := lastSaid (fun c => match c with | .zoom n => if 10 ≤ n ∧ n ≤ 400 then some n else none | _ => none) 100 calls
  topLeft := lastSaid (fun c => match c with | .topLeftCell r c => if OnSheet r c then some (r, c) else none | _ => none) (0, 0) calls
  panes := panesMeant calls
  selection := selectionMeant calls

/-- The colour of the tab and where the sums of outlines are: below and right of the details, or not. -/
structure TabSeen where
  color : Option ColorSeen
  below : Bool
  right : Bool
deriving DecidableEq

/-- The element `sheetPr`, 18.3.1.82. -/
def readTab (ks : List Node) : Option TabSeen :=
  match attrFlag "summaryBelow".toList true (attrsOf "outlinePr".toList (kidsOf "sheetPr".toList ks)),
      attrFlag "summaryRight".toList true (attrsOf "outlinePr".toList (kidsOf "sheetPr".toList ks)) with
  | some b, some r =>
    match child "tabColor".toList (kidsOf "sheetPr".toList ks) with
    | none => some ⟨none, b, r⟩
    | some e => (readColor e.1).map fun c => ⟨some c, b, r⟩
  | _, _ => none

/-- The colour that a user gives a tab: none, if it is the automatic one. Colours that are not possible are left out. -/
def tabColorMeant (calls : List SetupCall) : Color :=
  lastSaid (fun c => match c with | .tabColor c => if c.isValid then some c else none | _ => none) .default calls

/-- The tab after calls. -/
def tabMeant (calls : List SetupCall) : TabSeen where
  color := if tabColorMeant calls = .default ∨ tabColorMeant calls = .automatic then none else some (colorMeant (tabColorMeant calls))
  below := lastSaid (fun c => match c with | .symbolsAbove b => some !b | _ => none) true calls
  right := lastSaid (fun c => match c with | .symbolsToLeft b => some !b | _ => none) true calls

/-! ### Protection -/

/-- Whether something is allowed: the attribute says whether it is locked. -/
def allowed (n : Text) (default : Bool) (as : NodeAttrs) : Option Bool := (attrFlag n default as).map (!·)

/-- A hash of a password, in hexadecimal. -/
def readHash (as : NodeAttrs) : Option (Option Nat) :=
  match as.lookup "password".toList with
  | none => some none
  | some v => (readHex v).map some

/-- The element `sheetProtection`, 18.3.1.85, with the default values of its attributes: what a user may do on a sheet that is
protected, and the hash of the password. -/
def readProtection (ks : List Node) : Option (Option (Option Nat × ProtectionOptions)) :=
  match child "sheetProtection".toList ks with
  | none => some none
  | some e =>
    match attrFlag "sheet".toList false e.1 with
    | some true => do
      let hash ← readHash e.1
      let o1 ← allowed "selectLockedCells".toList false e.1
      let o2 ← allowed "selectUnlockedCells".toList false e.1
      let o3 ← allowed "formatCells".toList true e.1
      let o4 ← allowed "formatColumns".toList true e.1
      let o5 ← allowed "formatRows".toList true e.1
      let o6 ← allowed "insertColumns".toList true e.1
      let o7 ← allowed "insertRows".toList true e.1
      let o8 ← allowed "insertHyperlinks".toList true e.1
      let o9 ← allowed "deleteColumns".toList true e.1
      let o10 ← allowed "deleteRows".toList true e.1
      let o11 ← allowed "sort".toList true e.1
      let o12 ← allowed "autoFilter".toList true e.1
      let o13 ← allowed "pivotTables".toList true e.1
      let o14 ← allowed "scenarios".toList false e.1
      let o15 ← allowed "objects".toList false e.1
      some (some (hash, ⟨o1, o2, o3, o4, o5, o6, o7, o8, o9, o10, o11, o12, o13, o14, o15, true⟩))
    | some false => some none
    | none => none

/-- The hash of a password as a reader sees it: none, if it is 0. -/
def hashSeen (h : BitVec 16) : Option Nat := if h = 0 then none else some h.toNat

/-- A password as a reader sees it: an empty one is none. -/
def passwordSeen (p : List (BitVec 8)) : Option Nat := if p = [] then none else hashSeen (legacyHash p)

/-- The password after calls. -/
def passwordMeant (calls : List SetupCall) : Option Nat :=
  lastSaid (fun c => match c with | .protectWithPassword p => some (passwordSeen p) | _ => none) none calls

/-- What is allowed after calls. -/
def optionsMeant (calls : List SetupCall) : ProtectionOptions :=
  lastSaid (fun c => match c with | .protectWithOptions o => some { o with contents := true } | _ => none) {} calls

/-- The protection after calls. -/
def protectionMeant (calls : List SetupCall) : Option (Option Nat × ProtectionOptions) :=
  if calls.any fun c => match c with | .protect => true | .protectWithPassword _ => true | .protectWithOptions _ => true | _ => false
  then some (passwordMeant calls, optionsMeant calls) else none

/-- A range that may be edited on a protected sheet: name, range, hash of the password. -/
abbrev ProtectedRange := Text × ((Nat × Nat) × (Nat × Nat)) × Option Nat

/-- The elements `protectedRange`, 18.3.1.69. -/
def readProtectedRanges (ks : List Node) : Option (List ProtectedRange) :=
  (elems "protectedRange".toList (kidsOf "protectedRanges".toList ks)).mapM fun e =>
    match e.1.lookup "name".toList, e.1.lookup "sqref".toList, readHash e.1 with
    | some n, some r, some h => (readRange r).map fun r => (n, r, h)
    | _, _, _ => none

/-- A range on a sheet with its dimsCorners in order. -/
def GoodRange (d : Dims) : Prop := OnSheet d.lastRow d.lastCol ∧ d.firstRow ≤ d.lastRow ∧ d.firstCol ≤ d.lastCol

instance (d : Dims) : Decidable (GoodRange d) := inferInstanceAs (Decidable (_ ∧ _ ∧ _))

/-- The dimsCorners of a range. -/
def dimsCorners (d : Dims) : (Nat × Nat) × (Nat × Nat) := ((d.firstRow, d.firstCol), (d.lastRow, d.lastCol))

/-- The ranges after calls, behind those before: a range without a name is `Range` and its position. -/
def rangesMeant : List ProtectedRange → List SetupCall → List ProtectedRange
  | m, [] => m
  | m, .unprotectRange d name p :: calls =>
    if GoodRange d then
      rangesMeant (m ++ [(if name = [] then "Range".toList ++ showNat (m.length + 1) else name, dimsCorners d, passwordSeen p)]) calls
    else rangesMeant m calls
  | m, _ :: calls => rangesMeant m calls

/-! ### Ignored errors and page breaks -/

/-- The attribute of the element `ignoredError`, 18.3.1.51, for an error. -/
def errorAttr : IgnoreError → Text
  | .formulaError => "evalError".toList
  | .formulaDiffers => "formula".toList
  | .twoDigitTextYear => "twoDigitTextYear".toList
  | .formulaOmitsCells => "formulaRange".toList
  | .dataValidationError => "listDataValidation".toList
  | .numberStoredAsText => "numberStoredAsText".toList
  | .unlockedCellsWithFormula => "unlockedFormula".toList
  | .inconsistentColumnFormula => "calculatedColumn".toList
  | .formulaRefersToEmptyCells => "emptyCellReference".toList

/-- The ranges in which a kind of error is ignored. -/
def readIgnored (e : IgnoreError) (ks : List Node) : Option (List ((Nat × Nat) × (Nat × Nat))) :=
  (((elems "ignoredError".toList (kidsOf "ignoredErrors".toList ks)).filter fun x => attrFlag (errorAttr e) false x.1 == some true).flatMap
    fun x => rangesOfSqref ((x.1.lookup "sqref".toList).getD [])).mapM id

/-- The ranges after calls; a range that was given before is refused. `seen` are the ranges so far. -/
def ignoredMeant (e : IgnoreError) : List Dims → List SetupCall → List ((Nat × Nat) × (Nat × Nat))
  | _, [] => []
  | seen, .ignoreError d e' :: calls =>
    if GoodRange d ∧ d ∉ seen then
      if e' = e then dimsCorners d :: ignoredMeant e (d :: seen) calls else ignoredMeant e (d :: seen) calls
    else ignoredMeant e seen calls
  | seen, _ :: calls => ignoredMeant e seen calls

/-- Manual page breaks, 18.3.1.74 and 18.3.1.14: the rows or columns above or left of which a page ends. The attributes
`count` and `manualBreakCount` must be their number, and each break must run to the last column or row. -/
def readBreaks (tag : Text) (last : Nat) (ks : List Node) : Option (List Nat) :=
  match child tag ks with
  | none => some []
  | some e =>
    if attrNat "count".toList e.1 = some (elems "brk".toList e.2).length ∧
        attrNat "manualBreakCount".toList e.1 = some (elems "brk".toList e.2).length then
      (elems "brk".toList e.2).mapM fun b =>
        if attrNat "max".toList b.1 = some last ∧ attrFlag "man".toList false b.1 = some true then attrNat "id".toList b.1 else none
    else none

/-! ### The order of elements -/

/-- The tags of elements. -/
def tagsOf : List Node → List Text
  | [] => []
  | .elem t _ _ :: r => t :: tagsOf r
  | .text _ :: r => tagsOf r

/-- The elements of a worksheet in the order of the schema, CT_Worksheet in A.2. -/
def worksheetOrder : List Text := ["sheetPr".toList, "dimension".toList, "sheetViews".toList, "sheetFormatPr".toList, "cols".toList,
  "sheetData".toList, "sheetCalcPr".toList, "sheetProtection".toList, "protectedRanges".toList, "scenarios".toList,
  "autoFilter".toList, "sortState".toList, "dataConsolidate".toList, "customSheetViews".toList, "mergeCells".toList,
  "phoneticPr".toList, "conditionalFormatting".toList, "dataValidations".toList, "hyperlinks".toList, "printOptions".toList,
  "pageMargins".toList, "pageSetup".toList, "headerFooter".toList, "rowBreaks".toList, "colBreaks".toList,
  "customProperties".toList, "cellWatches".toList, "ignoredErrors".toList, "smartTags".toList, "drawing".toList,
  "legacyDrawing".toList, "legacyDrawingHF".toList, "picture".toList, "oleObjects".toList, "controls".toList,
  "webPublishItems".toList, "tableParts".toList, "extLst".toList]

/-- The elements of a chartsheet, CT_Chartsheet. -/
def chartsheetOrder : List Text := ["sheetPr".toList, "sheetViews".toList, "sheetProtection".toList, "customSheetViews".toList,
  "pageMargins".toList, "pageSetup".toList, "headerFooter".toList, "drawing".toList, "legacyDrawing".toList,
  "legacyDrawingHF".toList, "picture".toList, "webPublishItems".toList, "extLst".toList]

/-- Settings for which the schema of chartsheets has no element. -/
def notOnChartsheet : SetupCall → Bool
  | .unprotectRange .. => true
  | .centerHorizontally .. => true
  | .centerVertically .. => true
  | .printGridlines .. => true
  | .headings .. => true
  | _ => false

/-- The elements of `sheetPr`, CT_SheetPr. -/
def sheetPrOrder : List Text := ["tabColor".toList, "outlinePr".toList, "pageSetUpPr".toList]

/-- Tags in the order of a schema: each tag is in the list, and comes behind those before it; only some may be repeated. -/
def InOrder (order repeated : List Text) (tags : List Text) : Prop :=
  (∀ t ∈ tags, t ∈ order) ∧
  tags.Pairwise fun a b => order.idxOf a < order.idxOf b ∨ (a = b ∧ a ∈ repeated)

end Verif.Spec
