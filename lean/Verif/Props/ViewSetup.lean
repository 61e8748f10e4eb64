import Verif.Props.PageSetup
/-!
C60: the view of a sheet, its frozen panes, its selection and its tab as a reader of the file sees them.
-/
namespace Verif
open Spec

theorem gridCell_eq (r c : Nat) : gridCell r c = decide (OnSheet r c) := by
  rw [Bool.eq_iff_iff, decide_eq_true_iff]
  unfold gridCell OnSheet ROW_MAX COL_MAX
  rw [Bool.and_eq_true, decide_eq_true_iff, decide_eq_true_iff]

theorem gridCell_iff (r c : Nat) : gridCell r c = true ↔ OnSheet r c := by
  rw [gridCell_eq, decide_eq_true_iff]

theorem lastSaid_map {κ α β : Type} (g : α → β) (f : κ → Option α) (x : α) (calls : List κ) :
    lastSaid (fun c => (f c).map g) (g x) calls = g (lastSaid f x calls) := by
  induction calls generalizing x with
  | nil => rfl
  | cons c calls ih =>
    rw [lastSaid_cons, lastSaid_cons, ← ih]
    cases f c <;> rfl

/-! ### After the calls -/

theorem run_screenGridlines (calls : List SetupCall) : (Setup.run {} calls).screenGridlines = (viewMeant calls).gridlines :=
  run_field (·.screenGridlines) _ calls (by field_cases) {}
theorem run_rightToLeft (calls : List SetupCall) : (Setup.run {} calls).rightToLeft = (viewMeant calls).rightToLeft :=
  run_field (·.rightToLeft) _ calls (by field_cases) {}
theorem run_zoom (calls : List SetupCall) : (Setup.run {} calls).zoom = (viewMeant calls).zoom :=
  run_field (·.zoom) _ calls (by field_cases) {}

/-- The mode of the settings. -/
def modeOf : PageView → ViewMode
  | .normal => .normal
  | .pageLayout => .pageLayout
  | .pageBreaks => .pageBreakPreview

theorem run_mode (calls : List SetupCall) : modeOf (Setup.run {} calls).pageView = (viewMeant calls).mode :=
  run_field (fun s => modeOf s.pageView) _ calls (by field_cases) {}

theorem run_freeze (calls : List SetupCall) : (Setup.run {} calls).freezeCell = frozenAt calls :=
  run_field (·.freezeCell) _ calls (by
    intro s c _
    cases c <;> simp only [Setup.exec, gridCell_iff] <;> (repeat' split) <;> first | rfl | simp_all) {}
theorem run_topCell (calls : List SetupCall) : (Setup.run {} calls).topCell = frozenTop calls :=
  run_field (·.topCell) _ calls (by
    intro s c _
    cases c <;> simp only [Setup.exec, gridCell_iff] <;> (repeat' split) <;> first | rfl | simp_all) {}

/-- The first cell that is shown, as it is read. -/
def Setup.topLeftSeen (s : Setup) : Option (Nat × Nat) := if s.topLeftCell.isEmpty then some (0, 0) else readA1 s.topLeftCell

theorem rowColToCell_ne (r c : Nat) : (rowColToCell r c).isEmpty = false := by
  cases e : rowColToCell r c with
  | nil =>
    have := readA1_cell r c
    rw [e] at this
    rw [show readA1 [] = none from by decide] at this
    cases this
  | cons _ _ => rfl

theorem cellRange_ne (r1 c1 r2 c2 : Nat) : (cellRange r1 c1 r2 c2).isEmpty = false := by
  unfold cellRange
  dsimp only
  split
  · exact rowColToCell_ne _ _
  · cases rowColToCell r1 c1 <;> rfl

theorem run_topLeft {calls : List SetupCall} (h : ∀ c ∈ calls, c ≠ .topLeftCell 0 0) :
    (Setup.run {} calls).topLeftSeen = some (viewMeant calls).topLeft := by
  refine (run_field (·.topLeftSeen) _ calls (fun s c hc => ?_) {}).trans (lastSaid_map some _ (0, 0) calls)
  have := h c hc
  cases c <;> simp only [Setup.exec, Bool.and_eq_true, gridCell_iff] <;> (repeat' split) <;> first
    | rfl
    | (rename_i h1 h2 h3; obtain ⟨rfl, rfl⟩ := h2; exact absurd rfl this)
    | (unfold Setup.topLeftSeen; rw [rowColToCell_ne]; simp_all [readA1_cell])
    | simp_all

/-- The selection as it is read. -/
def Setup.selectionSeen (s : Setup) : Option SelectionSeen :=
  if s.selectedRange.1.isEmpty then some ((0, 0), ((0, 0), (0, 0)))
  else match readA1 s.selectedRange.1, readRange s.selectedRange.2 with
    | some c, some r => some (c, r)
    | _, _ => none

theorem run_selection (calls : List SetupCall) : (Setup.run {} calls).selectionSeen = some (selectionMeant calls) := by
  refine (run_field (·.selectionSeen) _ calls (fun s c hc => ?_) {}).trans (lastSaid_map some _ _ calls)
  cases c <;> simp only [Setup.exec, Bool.and_eq_true, gridCell_iff] <;> (repeat' split) <;> first
    | rfl
    | (unfold Setup.selectionSeen; rw [rowColToCell_ne]; simp_all [readA1_cell, C02_range_roundtrip])
    | simp_all

/-- The texts of a selection are both there or both missing. -/
theorem run_selection_texts (calls : List SetupCall) :
    (Setup.run {} calls).selectedRange.1.isEmpty = (Setup.run {} calls).selectedRange.2.isEmpty := by
  refine run_keeps (fun s => s.selectedRange.1.isEmpty = s.selectedRange.2.isEmpty) calls (fun s c hc hs => ?_) rfl
  cases c <;> simp only [Setup.exec] <;> (repeat' split) <;> first
    | exact hs
    | (dsimp only; rw [rowColToCell_ne, cellRange_ne])

/-! ### The element `sheetView` -/

variable {s : Setup} {o : SheetRest} {chart : Bool} {secs : List (Str × List Tree)}

/-- The attributes of the view. -/
def Setup.viewAttrs (s : Setup) (selected isChartsheet : Bool) : Attrs :=
    attrIf (!s.screenGridlines) "showGridLines".toList "0".toList ++
    (attrIf s.rightToLeft "rightToLeft".toList "1".toList ++
    (attrIf selected "tabSelected".toList "1".toList ++
    (attrIf (s.pageView ≠ .normal) "view".toList
      (if s.pageView = .pageLayout then "pageLayout".toList else "pageBreakPreview".toList) ++
    (attrIf (!s.topLeftCell.isEmpty) "topLeftCell".toList s.topLeftCell ++
    (attrIf (s.zoom ≠ 100) "zoomScale".toList (showNat s.zoom) ++
    (attrIf (s.zoom ≠ 100 && s.pageView = .pageLayout) "zoomScalePageLayoutView".toList (showNat s.zoom) ++
    (attrIf (s.zoom ≠ 100 && s.pageView = .pageBreaks) "zoomScaleSheetLayoutView".toList (showNat s.zoom) ++
    (attrIf (s.zoom ≠ 100 && s.pageView = .normal && !isChartsheet) "zoomScaleNormal".toList (showNat s.zoom) ++
    [("workbookViewId".toList, "0".toList)]))))))))

theorem child_sheetView (h : Secs s o chart secs) :
    Spec.child "sheetView".toList (kidsOf "sheetViews".toList (secNodes secs)) =
      some (s.viewAttrs o.selected chart, toNodes (s.paneTrees ++ s.selectionTrees)) := by
  unfold kidsOf
  rw [h.child h.sheetViews]
  simp only [List.head?_cons, Option.map_some, Option.getD_some]
  unfold Setup.sheetViewsTree
  simp only [treeParts]
  split
  · rename_i hb
    rw [Bool.and_eq_true, decide_eq_true_iff] at hb
    rw [child_head (t := "sheetView".toList) _ _ rfl]
    unfold Setup.paneTrees Setup.selectionTrees
    rw [if_pos hb.1, if_pos hb.2]
    rfl
  · exact child_head (t := "sheetView".toList) _ _ rfl

theorem view_attrs (s : Setup) (b c : Bool) :
    attrFlag "showGridLines".toList true (s.viewAttrs b c) = some s.screenGridlines ∧
    attrFlag "rightToLeft".toList false (s.viewAttrs b c) = some s.rightToLeft ∧
    readMode (s.viewAttrs b c) = some (modeOf s.pageView) ∧
    attrNatD "zoomScale".toList 100 (s.viewAttrs b c) = some s.zoom ∧
    attrCellD "topLeftCell".toList (s.viewAttrs b c) = s.topLeftSeen := by
  unfold Setup.viewAttrs
  refine ⟨?_, ?_, ?_, ?_, ?_⟩
  · rw [flag_default (v := "0".toList) (b := !s.screenGridlines) rfl (by look_attrs)]
    cases s.screenGridlines <;> rfl
  · exact flag_if _ _ (by look_attrs)
  · unfold readMode
    look_attrs
    cases s.pageView <;> rfl
  · exact nat_if (decide (s.zoom ≠ 100)) (by look_attrs) (by simp)
  · unfold attrCellD Setup.topLeftSeen
    look_attrs
    cases s.topLeftCell.isEmpty <;> rfl

/-! ### Panes and selections -/

theorem selection_tag (p a r : Str) : treeTag (selectionTree p a r) = "selection".toList := rfl

theorem selections_noPane (s : Setup) : ∀ x ∈ s.selectionTrees, treeTag x ≠ "pane".toList := by
  intro x hx
  unfold Setup.selectionTrees at hx
  split at hx
  · cases hx
  · rw [List.mem_singleton] at hx; subst hx; exact (by decide : "selection".toList ≠ "pane".toList)

/-- Frozen panes of the settings. -/
def Setup.panesSeen (s : Setup) : Option PanesSeen :=
  if s.freezeCell = (0, 0) then none
  else some ⟨s.freezeCell.1, s.freezeCell.2, if s.topCell = (0, 0) then s.freezeCell else s.topCell, paneName s.freezeCell.1 s.freezeCell.2⟩

theorem pane_read (s : Setup) (a : Str) (r : List Tree) :
    readPanes (toNodes (s.paneTree a :: r)) =
      some (some ⟨s.freezeCell.1, s.freezeCell.2, if s.topCell = (0, 0) then s.freezeCell else s.topCell, a⟩) := by
  unfold readPanes
  rw [child_head (t := "pane".toList) _ _ rfl]
  unfold Setup.paneTree
  dsimp only [treeParts]
  have h1 : attrNatD "xSplit".toList 0 (treeParts (s.paneTree a)).1 = some s.freezeCell.2 :=
    nat_if (decide (s.freezeCell.2 > 0)) (by unfold Setup.paneTree; look_attrs) (by simp)
  have h2 : attrNatD "ySplit".toList 0 (treeParts (s.paneTree a)).1 = some s.freezeCell.1 :=
    nat_if (decide (s.freezeCell.1 > 0)) (by unfold Setup.paneTree; look_attrs) (by simp)
  have h3 : attrCellD "topLeftCell".toList (treeParts (s.paneTree a)).1 = some (if s.topCell = (0, 0) then s.freezeCell else s.topCell) := by
    unfold attrCellD
    have : (treeParts (s.paneTree a)).1.lookup "topLeftCell".toList = some s.paneTopLeft := by unfold Setup.paneTree; look_attrs
    rw [this]
    unfold Setup.paneTopLeft
    dsimp only
    split <;> exact readA1_cell _ _
  have h4 : (treeParts (s.paneTree a)).1.lookup "state".toList = some "frozen".toList := by unfold Setup.paneTree; look_attrs
  have h5 : (treeParts (s.paneTree a)).1.lookup "activePane".toList = some a := by unfold Setup.paneTree; look_attrs
  unfold Setup.paneTree at h1 h2 h3 h4 h5
  dsimp only [treeParts] at h1 h2 h3 h4 h5
  rw [h1, h2, h3, h4, h5]
  rfl

theorem read_panes (s : Setup) : readPanes (toNodes (s.paneTrees ++ s.selectionTrees)) = some s.panesSeen := by
  unfold Setup.paneTrees Setup.panesSeen
  split
  · rw [List.nil_append]
    unfold readPanes
    rw [child_absent (selections_noPane s)]
  · rename_i h0
    have hz : ¬ (s.freezeCell.1 = 0 ∧ s.freezeCell.2 = 0) := fun h => h0 (Prod.ext h.1 h.2)
    unfold paneName
    by_cases h1 : s.freezeCell.1 > 0 ∧ s.freezeCell.2 > 0
    · rw [if_pos h1, if_neg (show ¬ s.freezeCell.1 = 0 by omega), if_neg (show ¬ s.freezeCell.2 = 0 by omega)]
      exact pane_read s _ _
    · rw [if_neg h1]
      by_cases h2 : s.freezeCell.2 > 0
      · rw [if_pos h2, if_pos (show s.freezeCell.1 = 0 by omega)]
        exact pane_read s _ _
      · rw [if_neg h2, if_neg (show ¬ s.freezeCell.1 = 0 by omega), if_pos (show s.freezeCell.2 = 0 by omega)]
        exact pane_read s _ _

theorem elems_cons_eq {t : Text} {x : Tree} (r : List Tree) (h : treeTag x = t) :
    elems t (toNodes (x :: r)) = treeParts x :: elems t (toNodes r) := by
  rw [elems_trees, elems_trees, List.filter_cons_of_pos (by simpa using h), List.map_cons]

theorem elems_cons_ne {t : Text} {x : Tree} (r : List Tree) (h : treeTag x ≠ t) :
    elems t (toNodes (x :: r)) = elems t (toNodes r) := by
  rw [elems_trees, elems_trees, List.filter_cons_of_neg (by simpa using h)]

theorem selection_pane (p a r : Str) :
    ((treeParts (selectionTree p a r)).1.lookup "pane".toList).getD "topLeft".toList = if p.isEmpty then "topLeft".toList else p := by
  have : (treeParts (selectionTree p a r)).1.lookup "pane".toList = if !p.isEmpty then some p else none := by
    unfold selectionTree; look_attrs
  rw [this]
  cases p.isEmpty <;> rfl

/-- The selection of a sheet without panes is that of the user. -/
theorem read_selection_plain (s : Setup) (h : s.selectedRange.1.isEmpty = s.selectedRange.2.isEmpty) (hf : s.freezeCell = (0, 0)) :
    readSelection "topLeft".toList (toNodes (s.paneTrees ++ s.selectionTrees)) = s.selectionSeen := by
  unfold Setup.paneTrees
  rw [if_pos hf, List.nil_append]
  unfold Setup.selectionTrees Setup.selectionSeen
  cases e : s.selectedRange.1.isEmpty
  · rw [e] at h
    simp only [Bool.false_eq_true, if_false]
    unfold readSelection
    rw [elems_cons_eq [] (selection_tag _ _ _), List.find?_cons_of_pos (by rw [selection_pane]; decide)]
    have h1 : (treeParts (selectionTree [] s.selectedRange.1 s.selectedRange.2)).1.lookup "activeCell".toList = some s.selectedRange.1 := by
      unfold selectionTree; look_attrs; rw [e]; rfl
    have h2 : (treeParts (selectionTree [] s.selectedRange.1 s.selectedRange.2)).1.lookup "sqref".toList = some s.selectedRange.2 := by
      unfold selectionTree; look_attrs; rw [← h]; rfl
    dsimp only
    unfold attrCellD attrRangeD
    rw [h1, h2]
    rfl
  · rfl

/-- The selection of the active pane, if the user did not select cells. -/
theorem read_selection_panes (s : Setup) (hf : s.freezeCell ≠ (0, 0)) :
    readSelection (paneName s.freezeCell.1 s.freezeCell.2) (toNodes (s.paneTrees ++ s.selectionTrees)) =
      some ((0, 0), ((0, 0), (0, 0))) := by
  have hz : ¬ (s.freezeCell.1 = 0 ∧ s.freezeCell.2 = 0) := fun h => hf (Prod.ext h.1 h.2)
  have hp : ∀ a, treeTag (s.paneTree a) ≠ "selection".toList := fun a => (by decide : "pane".toList ≠ "selection".toList)
  unfold Setup.paneTrees paneName
  rw [if_neg hf]
  unfold readSelection
  by_cases h1 : s.freezeCell.1 > 0 ∧ s.freezeCell.2 > 0
  · rw [if_pos h1, if_neg (by omega), if_neg (by omega)]
    simp only [List.cons_append]
    rw [elems_cons_ne _ (hp _), elems_cons_eq _ (selection_tag _ _ _), elems_cons_eq _ (selection_tag _ _ _),
      elems_cons_eq _ (selection_tag _ _ _), List.find?_cons_of_neg (by rw [selection_pane]; decide),
      List.find?_cons_of_neg (by rw [selection_pane]; decide), List.find?_cons_of_pos (by rw [selection_pane]; decide)]
    rfl
  · rw [if_neg h1]
    by_cases h2 : s.freezeCell.2 > 0
    · rw [if_pos h2, if_pos (by omega)]
      simp only [List.cons_append]
      rw [elems_cons_ne _ (hp _), elems_cons_eq _ (selection_tag _ _ _), List.find?_cons_of_pos (by rw [selection_pane]; decide)]
      rfl
    · rw [if_neg h2, if_neg (by omega), if_pos (by omega)]
      simp only [List.cons_append]
      rw [elems_cons_ne _ (hp _), elems_cons_eq _ (selection_tag _ _ _), List.find?_cons_of_pos (by rw [selection_pane]; decide)]
      rfl

theorem read_view (h : Secs s o chart secs) {t : Nat × Nat} (ht : s.topLeftSeen = some t) {sel : SelectionSeen}
    (hsel : readSelection (activePane s.panesSeen) (toNodes (s.paneTrees ++ s.selectionTrees)) = some sel) :
    readView (secNodes secs) = some ⟨s.screenGridlines, s.rightToLeft, modeOf s.pageView, s.zoom, t, s.panesSeen, sel⟩ := by
  obtain ⟨h1, h2, h3, h4, h5⟩ := view_attrs s o.selected chart
  unfold readView
  rw [child_sheetView h]
  dsimp only
  rw [h1, h2, h3, h4, h5, ht, read_panes]
  dsimp only
  rw [hsel]
  rfl

/-- Calls of the view that work: the first cell that is shown is not set back to A1, and cells are not selected on a sheet with
frozen panes. -/
def ViewCalls (calls : List SetupCall) : Prop :=
  (∀ c ∈ calls, CallSafe c ∧ c ≠ .topLeftCell 0 0) ∧
  (frozenAt calls = (0, 0) ∨ ∀ c ∈ calls, ∀ r1 c1 r2 c2, c ≠ .selection r1 c1 r2 c2)

theorem noSelection {calls : List SetupCall} (h : ∀ c ∈ calls, ∀ r1 c1 r2 c2, c ≠ .selection r1 c1 r2 c2) :
    selectionMeant calls = ((0, 0), ((0, 0), (0, 0))) := by
  unfold selectionMeant
  induction calls with
  | nil => rfl
  | cons c calls ih =>
    rw [lastSaid_cons]
    have hc := h c List.mem_cons_self
    have hi := ih fun c hc => h c (List.mem_cons_of_mem _ hc)
    clear h ih
    cases c <;> first
      | exact hi
      | exact absurd rfl (hc _ _ _ _)

theorem viewPart_run {calls : List SetupCall} (h : ViewCalls calls) (hsec : Secs (Setup.run {} calls) o chart secs) :
    readView (secNodes secs) = some (viewMeant calls) := by
  have hp : (Setup.run {} calls).panesSeen = panesMeant calls := by
    unfold Setup.panesSeen panesMeant
    rw [run_freeze, run_topCell]
  have hsel : readSelection (activePane (Setup.run {} calls).panesSeen)
      (toNodes ((Setup.run {} calls).paneTrees ++ (Setup.run {} calls).selectionTrees)) = some (selectionMeant calls) := by
    by_cases hf : (Setup.run {} calls).freezeCell = (0, 0)
    · have : (Setup.run {} calls).panesSeen = none := by unfold Setup.panesSeen; rw [if_pos hf]
      rw [this, ← run_selection]
      exact read_selection_plain _ (run_selection_texts calls) hf
    · have : activePane (Setup.run {} calls).panesSeen =
          paneName (Setup.run {} calls).freezeCell.1 (Setup.run {} calls).freezeCell.2 := by
        unfold Setup.panesSeen; rw [if_neg hf]; rfl
      rw [this, read_selection_panes _ hf]
      rcases h.2 with h2 | h2
      · rw [← run_freeze] at h2
        exact absurd h2 hf
      · rw [noSelection h2]
  rw [read_view hsec (run_topLeft fun c hc => (h.1 c hc).2) hsel, hp, run_screenGridlines, run_rightToLeft, run_zoom, run_mode]
  rfl

/-- C60: the view that a reader finds in the file of a worksheet is that of the last calls: gridlines, direction, mode, zoom, first
cell, frozen rows and columns with the first cell next to them, and the selection in the active pane. Missing: cells selected on
a sheet with frozen panes (`C60_selection_lost`), and the first cell set back to A1 (`C60_top_left_stays`). -/
theorem C60_view_partial (calls : List SetupCall) (h : ViewCalls calls) (o : SheetRest) (ho : RestOk o) :
    (parseDoc (writePart (worksheetTree (Setup.run {} calls) o))).bind (inRoot "worksheet".toList readView) =
      some (viewMeant calls) := by
  have hs := setupSafe_run fun c hc => (h.1 c hc).1
  rw [C07_part_roundtrip _ (worksheet_ok hs ho), Option.bind_some]
  unfold worksheetTree
  simp only [Tree.toNode, inRoot, if_true]
  exact viewPart_run h (secs_worksheet hs ho)

/-- C60 for chartsheets. -/
theorem C60_chartsheet_view_partial (calls : List SetupCall) (h : ViewCalls calls) (o : SheetRest) (ho : RestOk o) :
    (parseDoc (writePart (chartsheetTree (Setup.run {} calls) o))).bind (inRoot "chartsheet".toList readView) =
      some (viewMeant calls) := by
  have hs := setupSafe_run fun c hc => (h.1 c hc).1
  rw [C07_part_roundtrip _ (chartsheet_ok hs ho), Option.bind_some]
  unfold chartsheetTree
  simp only [Tree.toNode, inRoot, if_true]
  exact viewPart_run h (secs_chartsheet hs ho)

/-- The hypotheses of C60 hold for a sheet with a frozen row and two columns, scrolled down, and 150 percent. -/
theorem C60_witness : ∃ calls : List SetupCall, ViewCalls calls ∧
    calls = [.freezePanes 1 2, .freezePanesTopCell 20 2, .zoom 150, .zoom 5, .viewPageLayout, .screenGridlines false] ∧
    viewMeant calls = ⟨false, false, .pageLayout, 150, (0, 0), some ⟨1, 2, (20, 2), "bottomRight".toList⟩, ((0, 0), ((0, 0), (0, 0)))⟩ := by
  refine ⟨_, ⟨fun c hc => ?_, Or.inr fun c hc => ?_⟩, rfl, by decide +kernel⟩
  · simp only [List.mem_cons, List.not_mem_nil, or_false] at hc
    rcases hc with rfl | rfl | rfl | rfl | rfl | rfl <;> exact ⟨trivial, fun h => by cases h⟩
  · simp only [List.mem_cons, List.not_mem_nil, or_false] at hc
    rcases hc with rfl | rfl | rfl | rfl | rfl | rfl <;> exact fun _ _ _ _ h => by cases h

/-- Zooms are always those that Excel allows. -/
theorem C60_zoom_bounds (calls : List SetupCall) : 10 ≤ (Setup.run {} calls).zoom ∧ (Setup.run {} calls).zoom ≤ 400 := by
  refine run_keeps (fun s => 10 ≤ s.zoom ∧ s.zoom ≤ 400) calls (fun s c hc hs => ?_) (by decide)
  cases c <;> simp only [Setup.exec] <;> (repeat' split) <;> assumption

theorem callSafe_all {calls : List SetupCall} (h : ∀ c ∈ calls, CallSafe c) :
    parseDoc (writePart (worksheetTree (Setup.run {} calls) {})) = some (worksheetTree (Setup.run {} calls) {}).toNode :=
  C07_part_roundtrip _ (worksheet_ok (setupSafe_run h) restOk_empty)

/-- F120: cells that are selected on a sheet with frozen panes are not selected in the active pane: their element has no pane,
so it is for the pane at the top left, and the active pane has its own element without cells. -/
theorem C60_selection_lost :
    selectionMeant [.freezePanes 1 0, .selection 5 1 8 3] = ((5, 1), ((5, 1), (8, 3))) ∧
    (parseDoc (writePart (worksheetTree (Setup.run {} [.freezePanes 1 0, .selection 5 1 8 3]) {}))).bind
      (inRoot "worksheet".toList fun ks => (readView ks).map fun v => (activePane v.panes, v.selection)) =
      some ("bottomLeft".toList, ((0, 0), ((0, 0), (0, 0)))) := by
  refine ⟨by decide +kernel, ?_⟩
  rw [callSafe_all fun c hc => by
    simp only [List.mem_cons, List.not_mem_nil, or_false] at hc
    rcases hc with rfl | rfl <;> trivial]
  decide +kernel

/-- F125: the first cell cannot be set back to A1. -/
theorem C60_top_left_stays :
    (viewMeant [.topLeftCell 31 26, .topLeftCell 0 0]).topLeft = (0, 0) ∧
    (parseDoc (writePart (worksheetTree (Setup.run {} [.topLeftCell 31 26, .topLeftCell 0 0]) {}))).bind
      (inRoot "worksheet".toList fun ks => (readView ks).map (·.topLeft)) = some (31, 26) := by
  refine ⟨by decide +kernel, ?_⟩
  rw [callSafe_all fun c hc => by
    simp only [List.mem_cons, List.not_mem_nil, or_false] at hc
    rcases hc with rfl | rfl <;> trivial]
  decide +kernel

/-! ### The tab -/

theorem run_tabColor (calls : List SetupCall) : (Setup.run {} calls).tabColor = tabColorMeant calls :=
  run_field (·.tabColor) _ calls (by field_cases) {}
theorem run_above (calls : List SetupCall) : (!(Setup.run {} calls).symbolsAbove) = (tabMeant calls).below :=
  run_field (fun s => !s.symbolsAbove) _ calls (by field_cases) {}
theorem run_toLeft (calls : List SetupCall) : (!(Setup.run {} calls).symbolsLeft) = (tabMeant calls).right :=
  run_field (fun s => !s.symbolsLeft) _ calls (by field_cases) {}

theorem read_outline (h : Secs s o chart secs) :
    attrFlag "summaryBelow".toList true (attrsOf "outlinePr".toList (kidsOf "sheetPr".toList (secNodes secs))) = some (!s.symbolsAbove) ∧
    attrFlag "summaryRight".toList true (attrsOf "outlinePr".toList (kidsOf "sheetPr".toList (secNodes secs))) = some (!s.symbolsLeft) := by
  unfold attrsOf
  rw [child_outlinePr h]
  cases h1 : s.symbolsAbove <;> cases h2 : s.symbolsLeft <;> exact ⟨rfl, rfl⟩

/-- Calls of the tab that work: each colour is one that can be written and is not the automatic one. -/
def TabCall : SetupCall → Prop
  | .tabColor c => c.isValid = true → c.ok = true ∧ c ≠ .automatic
  | _ => True

theorem run_tabOk {calls : List SetupCall} (h : ∀ c ∈ calls, TabCall c) :
    (Setup.run {} calls).tabColor ≠ .automatic ∧ (Setup.run {} calls).tabColor.ok = true := by
  refine run_keeps (fun s => s.tabColor ≠ .automatic ∧ s.tabColor.ok = true) calls (fun s c hc hs => ?_) (by decide)
  have := h c hc
  cases c <;> simp only [Setup.exec] <;> (repeat' split) <;> first
    | exact hs
    | (rename_i hv; exact ⟨(this hv).2, (this hv).1⟩)

theorem tab_run {calls : List SetupCall} (h : ∀ c ∈ calls, TabCall c) (hsec : Secs (Setup.run {} calls) o chart secs) :
    readTab (secNodes secs) = some (tabMeant calls) := by
  obtain ⟨h1, h2⟩ := run_tabOk h
  obtain ⟨o1, o2⟩ := read_outline hsec
  unfold readTab
  rw [o1, o2, child_tabColor hsec, run_above, run_toLeft]
  dsimp only
  by_cases hd : (Setup.run {} calls).tabColor = .default
  · rw [if_neg (fun h => h.2 hd)]
    unfold tabMeant
    rw [← run_tabColor, if_pos (Or.inl hd)]
  · have ht : (Setup.run {} calls).hasTab = true := by
      unfold Setup.hasTab
      rw [Bool.and_eq_true, decide_eq_true_iff, decide_eq_true_iff]
      exact ⟨hd, h1⟩
    rw [ht, Bool.or_true, if_pos ⟨rfl, hd⟩]
    dsimp only
    rw [readColor_attributes h2 hd h1]
    unfold tabMeant
    rw [← run_tabColor, if_neg (by rintro (h | h); exact hd h; exact h1 h)]
    rfl

/-- C60: the colour of the tab and the positions of the outline symbols that a reader finds are those of the last calls. Missing: a
tab that is set back to the automatic colour (`C60_automatic_tab_coloured`). -/
theorem C60_tab_partial (calls : List SetupCall) (h : ∀ c ∈ calls, CallSafe c ∧ TabCall c) (o : SheetRest) (ho : RestOk o) :
    (parseDoc (writePart (worksheetTree (Setup.run {} calls) o))).bind (inRoot "worksheet".toList readTab) =
      some (tabMeant calls) := by
  have hs := setupSafe_run fun c hc => (h c hc).1
  rw [C07_part_roundtrip _ (worksheet_ok hs ho), Option.bind_some]
  unfold worksheetTree
  simp only [Tree.toNode, inRoot, if_true]
  exact tab_run (fun c hc => (h c hc).2) (secs_worksheet hs ho)

/-- The hypotheses hold for a red tab with the symbols above. -/
theorem C60_tab_witness : (∀ c ∈ [SetupCall.tabColor .red, .symbolsAbove true], CallSafe c ∧ TabCall c) ∧
    tabMeant [.tabColor .red, .symbolsAbove true] = ⟨some (.rgb 0xFF0000), false, true⟩ := by
  refine ⟨fun c hc => ?_, by decide +kernel⟩
  simp only [List.mem_cons, List.not_mem_nil, or_false] at hc
  rcases hc with rfl | rfl
  · exact ⟨trivial, fun _ => by decide⟩
  · exact ⟨trivial, trivial⟩

/-- F129: a tab with the automatic colour is black, if the element `sheetPr` is written for another setting. -/
theorem C60_automatic_tab_coloured :
    (tabMeant [.tabColor .automatic, .fitToPages 1 1]).color = none ∧
    (parseDoc (writePart (worksheetTree (Setup.run {} [.tabColor .automatic, .fitToPages 1 1]) {}))).bind
      (inRoot "worksheet".toList fun ks => (readTab ks).map (·.color)) = some (some (.rgb 0)) := by
  refine ⟨by decide +kernel, ?_⟩
  rw [callSafe_all fun c hc => by
    simp only [List.mem_cons, List.not_mem_nil, or_false] at hc
    rcases hc with rfl | rfl <;> trivial]
  decide +kernel

end Verif
