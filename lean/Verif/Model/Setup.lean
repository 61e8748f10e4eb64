import Verif.Model.Style
import Verif.Model.DataValid
import Verif.Model.Sheet
import Verif.Model.Misc
import Verif.Model.Url
/-!
The settings of a worksheet for printing, view and protection (/repo/src/worksheet.rs), and the order of the elements of a
worksheet part (/repo/src/worksheet.rs:17325-17537).
-/
namespace Verif

/-- `PageView`, /repo/src/worksheet.rs:20511-20515. -/
inductive PageView where
  | normal | pageLayout | pageBreaks
deriving DecidableEq, Repr

/-- `ProtectionOptions`, /repo/src/protection.rs:60-158. -/
structure ProtectionOptions where
  selectLockedCells : Bool := true
  selectUnlockedCells : Bool := true
  formatCells : Bool := false
  formatColumns : Bool := false
  formatRows : Bool := false
  insertColumns : Bool := false
  insertRows : Bool := false
  insertLinks : Bool := false
  deleteColumns : Bool := false
  deleteRows : Bool := false
  sort : Bool := false
  useAutofilter : Bool := false
  usePivotTables : Bool := false
  editScenarios : Bool := false
  editObjects : Bool := false
  contents : Bool := true
deriving DecidableEq, Repr

/-- `IgnoreError`, /repo/src/worksheet.rs:20737-20769. -/
inductive IgnoreError where
  | numberStoredAsText | formulaError | formulaDiffers | formulaRefersToEmptyCells | formulaOmitsCells | dataValidationError
  | twoDigitTextYear | unlockedCellsWithFormula | inconsistentColumnFormula
deriving DecidableEq, Repr

/-- The settings of a worksheet, with the values of `new` (/repo/src/worksheet.rs:1766-1817). Margins are the texts of the
numbers. -/
structure Setup where
  pageSetupChanged : Bool := false
  fitToPage : Bool := false
  tabColor : Color := .default
  fitWidth : Nat := 1
  fitHeight : Nat := 1
  paperSize : Nat := 0
  defaultPageOrder : Bool := true
  rightToLeft : Bool := false
  isPortrait : Bool := true
  pageView : PageView := .normal
  zoom : Nat := 100
  printScale : Nat := 100
  printOptionsChanged : Bool := false
  centerHorizontally : Bool := false
  centerVertically : Bool := false
  screenGridlines : Bool := true
  printGridlines : Bool := false
  blackAndWhite : Bool := false
  draft : Bool := false
  headings : Bool := false
  header : Str := []
  footer : Str := []
  headFooterChanged : Bool := false
  scaleWithDoc : Bool := true
  alignWithPage : Bool := true
  marginLeft : Str := "0.7".toList
  marginRight : Str := "0.7".toList
  marginTop : Str := "0.75".toList
  marginBottom : Str := "0.75".toList
  marginHeader : Str := "0.3".toList
  marginFooter : Str := "0.3".toList
  firstPageNumber : Nat := 0
  freezeCell : Nat × Nat := (0, 0)
  topCell : Nat × Nat := (0, 0)
  protectionOn : Bool := false
  protectionHash : BitVec 16 := 0
  options : ProtectionOptions := {}
  unprotected : List (Str × Str × BitVec 16) := []
  selectedRange : Str × Str := ([], [])
  topLeftCell : Str := []
  symbolsAbove : Bool := false
  symbolsLeft : Bool := false
  ignoredCells : List Dims := []
  ignoredErrors : List (IgnoreError × Str) := []

/-- The calls. A margin is `none` if the number is negative or not a number, else its text. Passwords are the bytes. -/
inductive SetupCall where
  | paperSize (n : Nat)
  | pageOrder (enable : Bool)
  | landscape
  | portrait
  | viewNormal
  | viewPageLayout
  | viewPageBreakPreview
  | zoom (n : Nat)
  | freezePanes (row col : Nat)
  | freezePanesTopCell (row col : Nat)
  | header (t : Str)
  | footer (t : Str)
  | headerFooterScaleWithDoc (enable : Bool)
  | headerFooterAlignWithPage (enable : Bool)
  | margins (left right top bottom header footer : Option Str)
  | firstPageNumber (n : Nat)
  | printScale (n : Nat)
  | fitToPages (width height : Nat)
  | centerHorizontally (enable : Bool)
  | centerVertically (enable : Bool)
  | screenGridlines (enable : Bool)
  | printGridlines (enable : Bool)
  | blackAndWhite (enable : Bool)
  | draft (enable : Bool)
  | headings (enable : Bool)
  | tabColor (c : Color)
  | rightToLeft (enable : Bool)
  | selection (firstRow firstCol lastRow lastCol : Nat)
  | topLeftCell (row col : Nat)
  | protect
  | protectWithPassword (password : List (BitVec 8))
  | protectWithOptions (o : ProtectionOptions)
  | unprotectRange (d : Dims) (name : Str) (password : List (BitVec 8))
  | symbolsAbove (enable : Bool)
  | symbolsToLeft (enable : Bool)
  | ignoreError (d : Dims) (e : IgnoreError)

/-- Rust `str::replace` for a pattern that is not empty: from the left, without overlaps. `n` is fuel. -/
def replaceAllN (p r : Str) : Nat → Str → Str
  | 0, s => s
  | _, [] => []
  | n + 1, c :: s => if startsWith p (c :: s) then r ++ replaceAllN p r n ((c :: s).drop p.length) else c :: replaceAllN p r n s

/-- Rust `str::replace`. -/
def replaceAll (p r s : Str) : Str := replaceAllN p r s.length s

/-- The chain of replacements, /repo/src/worksheet.rs:13270-13278, 13304-13312, 19419-19428, 19435-19444. -/
def expandHeader (s : Str) : Str :=
  replaceAll "&[Picture]".toList "&G".toList <|
  replaceAll "&[Pages]".toList "&N".toList <|
  replaceAll "&[Time]".toList "&T".toList <|
  replaceAll "&[Path]".toList "&Z".toList <|
  replaceAll "&[Page]".toList "&P".toList <|
  replaceAll "&[File]".toList "&F".toList <|
  replaceAll "&[Date]".toList "&D".toList <|
  replaceAll "&[Tab]".toList "&A".toList s

/-- `check_dimensions_only`, /repo/src/worksheet.rs:15970-15980. -/
def gridCell (row col : Nat) : Bool := decide (row < ROW_MAX) && decide (col < COL_MAX)

/-- The entry of a map, or another text appended to it, /repo/src/worksheet.rs:14688-14691. -/
def addIgnored (e : IgnoreError) (range : Str) : List (IgnoreError × Str) → List (IgnoreError × Str)
  | [] => [(e, range)]
  | (e', t) :: m => if e' = e then (e', t ++ ' ' :: range) :: m else (e', t) :: addIgnored e range m

/-- `set_margins` for one margin, /repo/src/worksheet.rs:13583-13606. -/
def setMargin (old : Str) : Option Str → Str
  | some t => t
  | none => old

/-- A call: whether it is accepted, and the settings after it. -/
def Setup.exec (s : Setup) : SetupCall → Bool × Setup
  -- 12634-12638
  | .paperSize n => (true, { s with paperSize := n, pageSetupChanged := true })
  -- 12683-12690
  | .pageOrder b => (true, { s with defaultPageOrder := b, pageSetupChanged := s.pageSetupChanged || !b })
  -- 12721-12737
  | .landscape => (true, { s with isPortrait := false, pageSetupChanged := true })
  | .portrait => (true, { s with isPortrait := true, pageSetupChanged := true })
  -- 12744-12769
  | .viewNormal => (true, { s with pageView := .normal })
  | .viewPageLayout => (true, { s with pageView := .pageLayout, pageSetupChanged := true })
  | .viewPageBreakPreview => (true, { s with pageView := .pageBreaks, pageSetupChanged := true })
  -- 12921-12929
  | .zoom n => if 10 ≤ n ∧ n ≤ 400 then (true, { s with zoom := n }) else (true, s)
  -- 12998-13076
  | .freezePanes r c => if gridCell r c then (true, { s with freezeCell := (r, c) }) else (false, s)
  | .freezePanesTopCell r c => if gridCell r c then (true, { s with topCell := (r, c) }) else (false, s)
  -- 13268-13323
  | .header t =>
    if (expandHeader t).length > 255 then (true, s)
    else (true, { s with header := t, pageSetupChanged := true, headFooterChanged := true })
  | .footer t =>
    if (expandHeader t).length > 255 then (true, s)
    else (true, { s with footer := t, pageSetupChanged := true, headFooterChanged := true })
  -- 13498-13528
  | .headerFooterScaleWithDoc b => (true, { s with scaleWithDoc := b, pageSetupChanged := s.pageSetupChanged || !b, headFooterChanged := s.headFooterChanged || !b })
  | .headerFooterAlignWithPage b => (true, { s with alignWithPage := b, pageSetupChanged := s.pageSetupChanged || !b, headFooterChanged := s.headFooterChanged || !b })
  -- 13574-13609
  | .margins l r t b h f => (true, { s with marginLeft := setMargin s.marginLeft l, marginRight := setMargin s.marginRight r, marginTop := setMargin s.marginTop t, marginBottom := setMargin s.marginBottom b, marginHeader := setMargin s.marginHeader h, marginFooter := setMargin s.marginFooter f, pageSetupChanged := s.pageSetupChanged || l.isSome || r.isSome || t.isSome || b.isSome || h.isSome || f.isSome })
  -- 13649-13653
  | .firstPageNumber n => (true, { s with firstPageNumber := n, pageSetupChanged := true })
  -- 13696-13708
  | .printScale n => if 10 ≤ n ∧ n ≤ 400 then (true, { s with fitToPage := false, printScale := n, pageSetupChanged := true }) else (true, s)
  -- 13780-13790
  | .fitToPages w h => (true, { s with fitWidth := w, fitHeight := h, printScale := 100, fitToPage := true, pageSetupChanged := true })
  -- 13804-13834
  | .centerHorizontally b => (true, { s with centerHorizontally := b, printOptionsChanged := s.printOptionsChanged || b, pageSetupChanged := s.pageSetupChanged || b })
  | .centerVertically b => (true, { s with centerVertically := b, printOptionsChanged := s.printOptionsChanged || b, pageSetupChanged := s.pageSetupChanged || b })
  -- 13879-13972
  | .screenGridlines b => (true, { s with screenGridlines := b })
  | .printGridlines b => (true, { s with printGridlines := b, printOptionsChanged := s.printOptionsChanged || b, pageSetupChanged := s.pageSetupChanged || b })
  | .blackAndWhite b => (true, { s with blackAndWhite := b, pageSetupChanged := s.pageSetupChanged || b })
  | .draft b => (true, { s with draft := b, pageSetupChanged := s.pageSetupChanged || b })
  | .headings b => (true, { s with headings := b, printOptionsChanged := s.printOptionsChanged || b, pageSetupChanged := s.pageSetupChanged || b })
  -- 12539-12546
  | .tabColor c => if c.isValid then (true, { s with tabColor := c }) else (true, s)
  -- 12251-12254
  | .rightToLeft b => (true, { s with rightToLeft := b })
  -- 9903-9940
  | .selection r1 c1 r2 c2 =>
    if gridCell r1 c1 && gridCell r2 c2 then
      (true, { s with selectedRange := (rowColToCell r1 c1, cellRange (min r1 r2) (min c1 c2) (max r1 r2) (max c1 c2)) })
    else (false, s)
  -- 9990-10008
  | .topLeftCell r c =>
    if gridCell r c then
      if r = 0 ∧ c = 0 then (true, s) else (true, { s with topLeftCell := rowColToCell r c })
    else (false, s)
  -- 9550-9683
  | .protect => (true, { s with protectionOn := true })
  | .protectWithPassword p => (true, { s with protectionOn := true, protectionHash := hashPassword p })
  | .protectWithOptions o => (true, { s with protectionOn := true, options := o })
  -- 9813-9845
  | .unprotectRange d name p =>
    if gridCell d.firstRow d.firstCol && gridCell d.lastRow d.lastCol then
      if d.firstRow > d.lastRow ∨ d.firstCol > d.lastCol then (false, s)
      else (true, { s with unprotected := s.unprotected ++ [(cellRange d.firstRow d.firstCol d.lastRow d.lastCol, (if name.isEmpty then "Range".toList ++ showNat (1 + s.unprotected.length) else name), hashPassword p)] })
    else (false, s)
  -- 7440-7443, 7556-7559
  | .symbolsAbove b => (true, { s with symbolsAbove := b })
  | .symbolsToLeft b => (true, { s with symbolsLeft := b })
  -- 14653-14694
  | .ignoreError d e =>
    if gridCell d.firstRow d.firstCol && gridCell d.lastRow d.lastCol then
      if d.firstRow > d.lastRow ∨ d.firstCol > d.lastCol then (false, s)
      else if d ∈ s.ignoredCells then (false, s)
      else (true, { s with ignoredCells := d :: s.ignoredCells, ignoredErrors := addIgnored e (cellRange d.firstRow d.firstCol d.lastRow d.lastCol) s.ignoredErrors })
    else (false, s)

/-- The settings after calls. -/
def Setup.run (s : Setup) (calls : List SetupCall) : Setup := calls.foldl (fun s c => (s.exec c).2) s

/-! ### Elements -/

/-- The attribute `password`, /repo/src/worksheet.rs:19510-19512 and 19604-19606. -/
def passwordAttrs (h : BitVec 16) : Attrs :=
  match passwordAttr h with
  | some v => [("password".toList, v)]
  | none => []

/-- `write_print_options`, /repo/src/worksheet.rs:18212-18232. -/
def Setup.printOptionsTree (s : Setup) : Tree :=
  .empty "printOptions".toList
    (attrIf s.centerHorizontally "horizontalCentered".toList "1".toList ++
    (attrIf s.centerVertically "verticalCentered".toList "1".toList ++
    (attrIf s.headings "headings".toList "1".toList ++ attrIf s.printGridlines "gridLines".toList "1".toList)))

/-- `write_page_margins`, /repo/src/worksheet.rs:18235-18246. -/
def Setup.pageMarginsTree (s : Setup) : Tree :=
  .empty "pageMargins".toList
    [("left".toList, s.marginLeft), ("right".toList, s.marginRight), ("top".toList, s.marginTop),
     ("bottom".toList, s.marginBottom), ("header".toList, s.marginHeader), ("footer".toList, s.marginFooter)]

/-- `write_page_setup`, /repo/src/worksheet.rs:18249-18295. -/
def Setup.pageSetupTree (s : Setup) : Tree :=
  .empty "pageSetup".toList
    (attrIf (s.paperSize > 0) "paperSize".toList (showNat s.paperSize) ++
    (attrIf (s.printScale ≠ 100) "scale".toList (showNat s.printScale) ++
    (attrIf (s.fitToPage && s.fitWidth ≠ 1) "fitToWidth".toList (showNat s.fitWidth) ++
    (attrIf (s.fitToPage && s.fitHeight ≠ 1) "fitToHeight".toList (showNat s.fitHeight) ++
    (attrIf (!s.defaultPageOrder) "pageOrder".toList "overThenDown".toList ++
    (("orientation".toList, if s.isPortrait then "portrait".toList else "landscape".toList) ::
    (attrIf (s.firstPageNumber > 0) "useFirstPageNumber".toList (showNat s.firstPageNumber) ++
    (attrIf s.blackAndWhite "blackAndWhite".toList "1".toList ++
    (attrIf s.draft "draft".toList "1".toList ++
    [("horizontalDpi".toList, "200".toList), ("verticalDpi".toList, "200".toList)])))))))))

/-- `write_header_footer`, /repo/src/worksheet.rs:19387-19447. -/
def Setup.headerFooterTree (s : Setup) : Tree :=
  let attrs := attrIf (!s.scaleWithDoc) "scaleWithDoc".toList "0".toList ++
    attrIf (!s.alignWithPage) "alignWithMargins".toList "0".toList
  if s.header.isEmpty && s.footer.isEmpty then .empty "headerFooter".toList attrs
  else .node "headerFooter".toList attrs
    ((if s.header.isEmpty then [] else [.data "oddHeader".toList (expandHeader s.header) []]) ++
     (if s.footer.isEmpty then [] else [.data "oddFooter".toList (expandHeader s.footer) []]))

/-- `write_sheet_protection`, /repo/src/worksheet.rs:19507-19587. -/
def Setup.protectionTree (s : Setup) (isChartsheet : Bool) : Tree :=
  .empty "sheetProtection".toList
    (passwordAttrs s.protectionHash ++
    (if isChartsheet then
      attrIf s.options.contents "content".toList "1".toList ++ attrIf s.options.editObjects "objects".toList "1".toList
    else
      ("sheet".toList, "1".toList) ::
      (attrIf (!s.options.editObjects) "objects".toList "1".toList ++
      (attrIf (!s.options.editScenarios) "scenarios".toList "1".toList ++
      (attrIf s.options.formatCells "formatCells".toList "0".toList ++
      (attrIf s.options.formatColumns "formatColumns".toList "0".toList ++
      (attrIf s.options.formatRows "formatRows".toList "0".toList ++
      (attrIf s.options.insertColumns "insertColumns".toList "0".toList ++
      (attrIf s.options.insertRows "insertRows".toList "0".toList ++
      (attrIf s.options.insertLinks "insertHyperlinks".toList "0".toList ++
      (attrIf s.options.deleteColumns "deleteColumns".toList "0".toList ++
      (attrIf s.options.deleteRows "deleteRows".toList "0".toList ++
      (attrIf (!s.options.selectLockedCells) "selectLockedCells".toList "1".toList ++
      (attrIf s.options.sort "sort".toList "0".toList ++
      (attrIf s.options.useAutofilter "autoFilter".toList "0".toList ++
      (attrIf s.options.usePivotTables "pivotTables".toList "0".toList ++
      attrIf (!s.options.selectUnlockedCells) "selectUnlockedCells".toList "1".toList))))))))))))))))

/-- `write_protected_ranges`, /repo/src/worksheet.rs:19590-19612. -/
def Setup.protectedRangesTree (s : Setup) : Tree :=
  .node "protectedRanges".toList [] (s.unprotected.map fun p =>
    .empty "protectedRange".toList
      (passwordAttrs p.2.2 ++ [("sqref".toList, p.1), ("name".toList, p.2.1)]))

/-- `to_string`, /repo/src/worksheet.rs:20790-20804. -/
def IgnoreError.name : IgnoreError → Str
  | .formulaError => "evalError".toList
  | .formulaDiffers => "formula".toList
  | .twoDigitTextYear => "TwoDigitTextYear".toList
  | .formulaOmitsCells => "formulaRange".toList
  | .dataValidationError => "listDataValidation".toList
  | .numberStoredAsText => "numberStoredAsText".toList
  | .unlockedCellsWithFormula => "unlockedFormula".toList
  | .inconsistentColumnFormula => "calculatedColumn".toList
  | .formulaRefersToEmptyCells => "emptyCellReference".toList

/-- `iterator`, /repo/src/worksheet.rs:20773-20787. -/
def IgnoreError.all : List IgnoreError :=
  [.numberStoredAsText, .formulaError, .formulaDiffers, .formulaOmitsCells, .unlockedCellsWithFormula, .inconsistentColumnFormula,
   .formulaRefersToEmptyCells, .dataValidationError, .twoDigitTextYear]

/-- `write_ignored_errors`, /repo/src/worksheet.rs:19854-19870. -/
def Setup.ignoredErrorsTree (s : Setup) : Tree :=
  .node "ignoredErrors".toList [] (IgnoreError.all.filterMap fun e =>
    (s.ignoredErrors.lookup e).map fun sqref =>
      .empty "ignoredError".toList [("sqref".toList, sqref), (e.name, "1".toList)])

/-- `write_row_breaks` and `write_col_breaks`, /repo/src/worksheet.rs:19615-19668. -/
def breaksTree (tag : Str) (max : Str) (breaks : List Nat) : Tree :=
  .node tag [("count".toList, showNat breaks.length), ("manualBreakCount".toList, showNat breaks.length)]
    (breaks.map fun n => .empty "brk".toList [("id".toList, showNat n), ("max".toList, max), ("man".toList, "1".toList)])

/-- `write_selection`, /repo/src/worksheet.rs:17835-17851. -/
def selectionTree (position active range : Str) : Tree :=
  .empty "selection".toList
    (attrIf (!position.isEmpty) "pane".toList position ++
    (attrIf (!active.isEmpty) "activeCell".toList active ++ attrIf (!range.isEmpty) "sqref".toList range))

/-- `top_left`, /repo/src/worksheet.rs:20565-20571. -/
def Setup.paneTopLeft (s : Setup) : Str :=
  if s.topCell = (0, 0) then rowColToCell s.freezeCell.1 s.freezeCell.2 else rowColToCell s.topCell.1 s.topCell.2

/-- `write_pane`, /repo/src/worksheet.rs:17814-17832. -/
def Setup.paneTree (s : Setup) (active : Str) : Tree :=
  .empty "pane".toList
    (attrIf (s.freezeCell.2 > 0) "xSplit".toList (showNat s.freezeCell.2) ++
    (attrIf (s.freezeCell.1 > 0) "ySplit".toList (showNat s.freezeCell.1) ++
    [("topLeftCell".toList, s.paneTopLeft), ("activePane".toList, active), ("state".toList, "frozen".toList)]))

/-- `write_panes`, /repo/src/worksheet.rs:17782-17811. -/
def Setup.paneTrees (s : Setup) : List Tree :=
  if s.freezeCell = (0, 0) then []
  else if s.freezeCell.1 > 0 ∧ s.freezeCell.2 > 0 then
    [s.paneTree "bottomRight".toList,
     selectionTree "topRight".toList (rowColToCell 0 s.freezeCell.2) (rowColToCell 0 s.freezeCell.2),
     selectionTree "bottomLeft".toList (rowColToCell s.freezeCell.1 0) (rowColToCell s.freezeCell.1 0),
     selectionTree "bottomRight".toList [] []]
  else if s.freezeCell.2 > 0 then [s.paneTree "topRight".toList, selectionTree "topRight".toList [] []]
  else [s.paneTree "bottomLeft".toList, selectionTree "bottomLeft".toList [] []]

/-- `write_selections`, /repo/src/worksheet.rs:17770-17779. -/
def Setup.selectionTrees (s : Setup) : List Tree :=
  if s.selectedRange.1.isEmpty then [] else [selectionTree [] s.selectedRange.1 s.selectedRange.2]

/-- `write_sheet_views`, /repo/src/worksheet.rs:17700-17767. `selected` is the field of `View`. -/
def Setup.sheetViewsTree (s : Setup) (selected isChartsheet : Bool) : Tree :=
  let attrs :=
    attrIf (!s.screenGridlines) "showGridLines".toList "0".toList ++
    (attrIf s.rightToLeft "rightToLeft".toList "1".toList ++
    (attrIf selected "tabSelected".toList "1".toList ++
    (attrIf (s.pageView ≠ .normal) "view".toList
      (if s.pageView = .pageLayout then "pageLayout".toList else "pageBreakPreview".toList) ++
    (attrIf (!s.topLeftCell.isEmpty) "topLeftCell".toList s.topLeftCell ++
    (attrIf (s.zoom ≠ 100) "zoomScale".toList (showNat s.zoom) ++
    (attrIf (s.zoom ≠ 100 && s.pageView = .pageLayout) "zoomScalePageLayoutView".toList (showNat s.zoom) ++
    (attrIf (s.zoom ≠ 100 && s.pageView = .pageBreaks) "zoomScaleSheetLayoutView".toList (showNat s.zoom) ++
    (attrIf (s.zoom ≠ 100 && s.pageView = .normal && !isChartsheet) "zoomScaleNormal".toList (showNat s.zoom) ++
    [("workbookViewId".toList, "0".toList)]))))))))
  .node "sheetViews".toList []
    [if s.freezeCell = (0, 0) && s.selectedRange.1.isEmpty then .empty "sheetView".toList attrs
     else .node "sheetView".toList attrs (s.paneTrees ++ s.selectionTrees)]

/-- What the worksheet part has besides the settings. Its elements are modelled in other files; here they are trees. -/
structure SheetRest where
  x14 : Bool := false
  hasFilter : Bool := false
  codeName : Option Str := none
  selected : Bool := false
  dimension : Str := "A1".toList
  formatAttrs : Attrs := []
  cols : Option Tree := none
  sheetData : Tree := .empty "sheetData".toList []
  autoFilter : Option Tree := none
  mergeCells : Option Tree := none
  conditionalFormats : List Tree := []
  dataValidations : Option Tree := none
  hyperlinks : Option Tree := none
  rowBreaks : List Nat := []
  colBreaks : List Nat := []
  drawing : Option Tree := none
  legacyDrawing : Option Tree := none
  legacyDrawingHF : Option Tree := none
  picture : Option Tree := none
  tableParts : Option Tree := none
  extLst : Option Tree := none

/-- `write_sheet_pr`, /repo/src/worksheet.rs:17584-17665. -/
def Setup.sheetPrTrees (s : Setup) (o : SheetRest) (isChartsheet : Bool) : List Tree :=
  let tab := s.tabColor ≠ .default && s.tabColor ≠ .automatic
  if !o.hasFilter && !s.fitToPage && !tab && o.codeName.isNone && !isChartsheet && !s.symbolsAbove && !s.symbolsLeft then []
  else
    let attrs := (match o.codeName with | some n => [("codeName".toList, n)] | none => []) ++
      attrIf o.hasFilter "filterMode".toList "1".toList
    if s.fitToPage || s.symbolsAbove || s.symbolsLeft || tab then
      [.node "sheetPr".toList attrs
        ((if s.fitToPage then [.empty "pageSetUpPr".toList [("fitToPage".toList, "1".toList)]] else []) ++
        ((if s.tabColor ≠ .default then [.empty "tabColor".toList s.tabColor.attributes] else []) ++
         (if s.symbolsAbove || s.symbolsLeft then
          [.empty "outlinePr".toList (attrIf s.symbolsAbove "summaryBelow".toList "0".toList ++
            attrIf s.symbolsLeft "summaryRight".toList "0".toList)] else [])))]
    else [.empty "sheetPr".toList attrs]

/-- `assemble_xml_file`, /repo/src/worksheet.rs:17325-17482: the elements in order, by their tags. -/
def worksheetSections (s : Setup) (o : SheetRest) : List (Str × List Tree) :=
  [("sheetPr".toList, s.sheetPrTrees o false),
   ("dimension".toList, [.empty "dimension".toList [("ref".toList, o.dimension)]]),
   ("sheetViews".toList, [s.sheetViewsTree o.selected false]),
   ("sheetFormatPr".toList, [.empty "sheetFormatPr".toList o.formatAttrs]),
   ("cols".toList, o.cols.toList),
   ("sheetData".toList, [o.sheetData]),
   ("sheetProtection".toList, if s.protectionOn then [s.protectionTree false] else []),
   ("protectedRanges".toList, if s.unprotected.isEmpty then [] else [s.protectedRangesTree]),
   ("autoFilter".toList, o.autoFilter.toList),
   ("mergeCells".toList, o.mergeCells.toList),
   ("conditionalFormatting".toList, o.conditionalFormats),
   ("dataValidations".toList, o.dataValidations.toList),
   ("hyperlinks".toList, o.hyperlinks.toList),
   ("printOptions".toList, if s.printOptionsChanged then [s.printOptionsTree] else []),
   ("pageMargins".toList, [s.pageMarginsTree]),
   ("pageSetup".toList, if s.pageSetupChanged then [s.pageSetupTree] else []),
   ("headerFooter".toList, if s.headFooterChanged then [s.headerFooterTree] else []),
   ("rowBreaks".toList, if o.rowBreaks.isEmpty then [] else [breaksTree "rowBreaks".toList "16383".toList o.rowBreaks]),
   ("colBreaks".toList, if o.colBreaks.isEmpty then [] else [breaksTree "colBreaks".toList "1048575".toList o.colBreaks]),
   ("ignoredErrors".toList, if s.ignoredErrors.isEmpty then [] else [s.ignoredErrorsTree]),
   ("drawing".toList, o.drawing.toList),
   ("legacyDrawing".toList, o.legacyDrawing.toList),
   ("legacyDrawingHF".toList, o.legacyDrawingHF.toList),
   ("picture".toList, o.picture.toList),
   ("tableParts".toList, o.tableParts.toList),
   ("extLst".toList, o.extLst.toList)]

/-- `write_worksheet`, /repo/src/worksheet.rs:17540-17565. -/
def worksheetAttrs (x14 : Bool) : Attrs :=
  ("xmlns".toList, "http://schemas.openxmlformats.org/spreadsheetml/2006/main".toList) ::
  ("xmlns:r".toList, "http://schemas.openxmlformats.org/officeDocument/2006/relationships".toList) ::
  if x14 then
    [("xmlns:mc".toList, "http://schemas.openxmlformats.org/markup-compatibility/2006".toList),
     ("xmlns:x14ac".toList, "http://schemas.microsoft.com/office/spreadsheetml/2009/9/ac".toList),
     ("mc:Ignorable".toList, "x14ac".toList)]
  else []

/-- The worksheet part. -/
def worksheetTree (s : Setup) (o : SheetRest) : Tree :=
  .node "worksheet".toList (worksheetAttrs o.x14) ((worksheetSections s o).flatMap (·.2))

/-- `assemble_chartsheet`, /repo/src/worksheet.rs:17485-17537. -/
def chartsheetSections (s : Setup) (o : SheetRest) : List (Str × List Tree) :=
  [("sheetPr".toList, s.sheetPrTrees o true),
   ("sheetViews".toList, [s.sheetViewsTree o.selected true]),
   ("sheetProtection".toList, if s.protectionOn then [s.protectionTree true] else []),
   ("protectedRanges".toList, if s.unprotected.isEmpty then [] else [s.protectedRangesTree]),
   ("printOptions".toList, if s.printOptionsChanged then [s.printOptionsTree] else []),
   ("pageMargins".toList, [s.pageMarginsTree]),
   ("pageSetup".toList, if s.pageSetupChanged then [s.pageSetupTree] else []),
   ("headerFooter".toList, if s.headFooterChanged then [s.headerFooterTree] else []),
   ("drawing".toList, o.drawing.toList),
   ("legacyDrawingHF".toList, o.legacyDrawingHF.toList)]

/-- The chartsheet part. -/
def chartsheetTree (s : Setup) (o : SheetRest) : Tree :=
  .node "chartsheet".toList (worksheetAttrs false) ((chartsheetSections s o).flatMap (·.2))

end Verif
