import Verif.Props.SetupPart
/-!
C59: the page settings as a reader of the file sees them.
-/
namespace Verif
open Spec

/-- The sections of a sheet that come from the settings. -/
structure Secs (s : Setup) (o : SheetRest) (chart : Bool) (secs : List (Str × List Tree)) : Prop where
  ok : SecsOk secs
  nodup : (secs.map Prod.fst).Nodup
  sheetPr : secs.lookup "sheetPr".toList = some (s.sheetPrTrees o chart)
  sheetViews : secs.lookup "sheetViews".toList = some [s.sheetViewsTree o.selected chart]
  protection : secs.lookup "sheetProtection".toList = some (if s.protectionOn then [s.protectionTree chart] else [])
  ranges : secs.lookup "protectedRanges".toList = some (if s.unprotected.isEmpty then [] else [s.protectedRangesTree])
  printOptions : secs.lookup "printOptions".toList = some (if s.printOptionsChanged then [s.printOptionsTree] else [])
  pageMargins : secs.lookup "pageMargins".toList = some [s.pageMarginsTree]
  pageSetup : secs.lookup "pageSetup".toList = some (if s.pageSetupChanged then [s.pageSetupTree] else [])
  headerFooter : secs.lookup "headerFooter".toList = some (if s.headFooterChanged then [s.headerFooterTree] else [])

macro "sec_look" : tactic => `(tactic| simp (discharger := decide) only [assoc_ne, assoc_eq])

theorem secs_worksheet {s : Setup} {o : SheetRest} (h : SetupSafe s) (ho : RestOk o) :
    Secs s o false (worksheetSections s o) where
  ok := worksheet_secs h ho
  nodup := by unfold worksheetSections; simp only [List.map_cons, List.map_nil]; decide
  sheetPr := by unfold worksheetSections; sec_look
  sheetViews := by unfold worksheetSections; sec_look
  protection := by unfold worksheetSections; sec_look
  ranges := by unfold worksheetSections; sec_look
  printOptions := by unfold worksheetSections; sec_look
  pageMargins := by unfold worksheetSections; sec_look
  pageSetup := by unfold worksheetSections; sec_look
  headerFooter := by unfold worksheetSections; sec_look

theorem secs_chartsheet {s : Setup} {o : SheetRest} (h : SetupSafe s) (ho : RestOk o) :
    Secs s o true (chartsheetSections s o) where
  ok := chartsheet_secs h ho
  nodup := by unfold chartsheetSections; simp only [List.map_cons, List.map_nil]; decide
  sheetPr := by unfold chartsheetSections; sec_look
  sheetViews := by unfold chartsheetSections; sec_look
  protection := by unfold chartsheetSections; sec_look
  ranges := by unfold chartsheetSections; sec_look
  printOptions := by unfold chartsheetSections; sec_look
  pageMargins := by unfold chartsheetSections; sec_look
  pageSetup := by unfold chartsheetSections; sec_look
  headerFooter := by unfold chartsheetSections; sec_look

variable {s : Setup} {o : SheetRest} {chart : Bool} {secs : List (Str × List Tree)}

/-- The nodes of the sections. -/
def secNodes (secs : List (Str × List Tree)) : List Node := toNodes (secs.flatMap (·.2))

theorem Secs.child (h : Secs s o chart secs) {t : Text} {ts : List Tree} (ht : secs.lookup t = some ts) :
    Spec.child t (secNodes secs) = ts.head?.map treeParts := by
  unfold secNodes
  rw [secs_child h.ok h.nodup, ht]; rfl

/-! ### The element `pageSetup` -/

theorem nat_if {n : Text} {d v : Nat} {as : Attrs} (b : Bool) (h : as.lookup n = if b then some (showNat v) else none)
    (hb : b = false → v = d) : attrNatD n d as = some v := by
  unfold attrNatD
  rw [h]
  cases b
  · simp [hb rfl]
  · simp [readNat_showNat]

theorem flag_default {n : Text} {d b : Bool} {v : Text} {as : Attrs} (hv : v = if d then "0".toList else "1".toList)
    (h : as.lookup n = if b then some v else none) : attrFlag n d as = some (if b then !d else d) := by
  subst hv
  unfold attrFlag
  rw [h]
  cases b <;> cases d <;> rfl

macro "look_attrs" : tactic =>
  `(tactic| simp (discharger := decide) only [treeParts, attrIf_ne, attrIf_eq, attrIf_ne', attrIf_eq', look_ne, look_eq, look_nil])

theorem pageSetup_attrs (h : Secs s o chart secs) :
    attrsOf "pageSetup".toList (secNodes secs) = if s.pageSetupChanged then (treeParts s.pageSetupTree).1 else [] := by
  unfold attrsOf
  rw [h.child h.pageSetup]
  cases s.pageSetupChanged <;> rfl

theorem printOptions_attrs (h : Secs s o chart secs) :
    attrsOf "printOptions".toList (secNodes secs) = if s.printOptionsChanged then (treeParts s.printOptionsTree).1 else [] := by
  unfold attrsOf
  rw [h.child h.printOptions]
  cases s.printOptionsChanged <;> rfl

theorem pageMargins_attrs (h : Secs s o chart secs) :
    attrsOf "pageMargins".toList (secNodes secs) = (treeParts s.pageMarginsTree).1 := by
  unfold attrsOf
  rw [h.child h.pageMargins]
  rfl

theorem attrFlag_nil (n : Text) (d : Bool) : attrFlag n d [] = some d := rfl
theorem attrNatD_nil (n : Text) (d : Nat) : attrNatD n d [] = some d := rfl

theorem read_pageSetup (hi : SetupInv s) (h : Secs s o chart secs) :
    attrNatD "paperSize".toList 0 (attrsOf "pageSetup".toList (secNodes secs)) = some s.paperSize ∧
    readLandscape (attrsOf "pageSetup".toList (secNodes secs)) = some (!s.isPortrait) ∧
    readPageOrder (attrsOf "pageSetup".toList (secNodes secs)) = some (!s.defaultPageOrder) ∧
    (s.firstPageNumber ≤ 1 → readFirstPage (attrsOf "pageSetup".toList (secNodes secs)) =
      some (if s.firstPageNumber = 0 then none else some s.firstPageNumber)) ∧
    attrFlag "blackAndWhite".toList false (attrsOf "pageSetup".toList (secNodes secs)) = some s.blackAndWhite ∧
    attrFlag "draft".toList false (attrsOf "pageSetup".toList (secNodes secs)) = some s.draft ∧
    attrNatD "scale".toList 100 (attrsOf "pageSetup".toList (secNodes secs)) = some s.printScale ∧
    (s.fitToPage = true → attrNatD "fitToWidth".toList 1 (attrsOf "pageSetup".toList (secNodes secs)) = some s.fitWidth ∧
      attrNatD "fitToHeight".toList 1 (attrsOf "pageSetup".toList (secNodes secs)) = some s.fitHeight) ∧
    (s.fitToPage = false → attrNatD "fitToWidth".toList 1 (attrsOf "pageSetup".toList (secNodes secs)) = some 1 ∧
      attrNatD "fitToHeight".toList 1 (attrsOf "pageSetup".toList (secNodes secs)) = some 1) := by
  rw [pageSetup_attrs h]
  cases e : s.pageSetupChanged with
  | false =>
    obtain ⟨h1, h2, h3, h4, h5, h6, h7, h8⟩ := hi.page e
    simp only [h1, h2, h3, h4, h5, h6, h7, h8, Bool.false_eq_true, if_false]
    refine ⟨rfl, rfl, rfl, ?_, rfl, rfl, rfl, ?_, fun _ => ⟨rfl, rfl⟩⟩
    · intro _; rfl
    · intro h; exact absurd h (by simp)
  | true =>
    simp only [if_true]
    unfold Setup.pageSetupTree
    refine ⟨?_, ?_, ?_, fun hf => ?_, ?_, ?_, ?_, fun hf => ?_, fun hf => ?_⟩
    · exact nat_if (decide (s.paperSize > 0)) (by look_attrs) (by simp)
    · have : (treeParts s.pageSetupTree).1.lookup "orientation".toList =
          some (if s.isPortrait then "portrait".toList else "landscape".toList) := by unfold Setup.pageSetupTree; look_attrs
      unfold Setup.pageSetupTree at this
      unfold readLandscape
      rw [this]
      cases s.isPortrait <;> rfl
    · have : (treeParts s.pageSetupTree).1.lookup "pageOrder".toList =
          if !s.defaultPageOrder then some "overThenDown".toList else none := by unfold Setup.pageSetupTree; look_attrs
      unfold Setup.pageSetupTree at this
      unfold readPageOrder
      rw [this]
      cases s.defaultPageOrder <;> rfl
    · have h1 : (treeParts s.pageSetupTree).1.lookup "useFirstPageNumber".toList =
          if decide (s.firstPageNumber > 0) then some (showNat s.firstPageNumber) else none := by
        unfold Setup.pageSetupTree; look_attrs
      have h2 : (treeParts s.pageSetupTree).1.lookup "firstPageNumber".toList = none := by unfold Setup.pageSetupTree; look_attrs
      unfold Setup.pageSetupTree at h1 h2
      unfold readFirstPage attrFlag attrNatD
      rw [h1, h2]
      rcases (by omega : s.firstPageNumber = 0 ∨ s.firstPageNumber = 1) with hz | hz
      · rw [hz]; rfl
      · rw [hz, show showNat 1 = "1".toList from by decide +kernel]; rfl
    · exact flag_if _ _ (by look_attrs)
    · exact flag_if _ _ (by look_attrs)
    · exact nat_if (decide (s.printScale ≠ 100)) (by look_attrs) (by simp)
    · refine ⟨nat_if (decide (s.fitWidth ≠ 1)) (by look_attrs; rw [hf, Bool.true_and]) (by simp),
        nat_if (decide (s.fitHeight ≠ 1)) (by look_attrs; rw [hf, Bool.true_and]) (by simp)⟩
    · refine ⟨nat_if false (by look_attrs; rw [hf, Bool.false_and]; rfl) (fun _ => rfl) (v := 1),
        nat_if false (by look_attrs; rw [hf, Bool.false_and]; rfl) (fun _ => rfl) (v := 1)⟩

theorem read_printOptions (hi : SetupInv s) (h : Secs s o chart secs) :
    attrFlag "horizontalCentered".toList false (attrsOf "printOptions".toList (secNodes secs)) = some s.centerHorizontally ∧
    attrFlag "verticalCentered".toList false (attrsOf "printOptions".toList (secNodes secs)) = some s.centerVertically ∧
    attrFlag "headings".toList false (attrsOf "printOptions".toList (secNodes secs)) = some s.headings ∧
    attrFlag "gridLines".toList false (attrsOf "printOptions".toList (secNodes secs)) = some s.printGridlines := by
  rw [printOptions_attrs h]
  cases e : s.printOptionsChanged with
  | false =>
    obtain ⟨h1, h2, h3, h4⟩ := hi.print e
    simp only [h1, h2, h3, h4, Bool.false_eq_true, if_false]
    exact ⟨rfl, rfl, rfl, rfl⟩
  | true =>
    simp only [if_true]
    unfold Setup.printOptionsTree
    exact ⟨flag_if _ _ (by look_attrs), flag_if _ _ (by look_attrs), flag_if _ _ (by look_attrs), flag_if _ _ (by look_attrs)⟩

theorem read_margins (h : Secs s o chart secs) :
    (attrsOf "pageMargins".toList (secNodes secs)).lookup "left".toList = some s.marginLeft ∧
    (attrsOf "pageMargins".toList (secNodes secs)).lookup "right".toList = some s.marginRight ∧
    (attrsOf "pageMargins".toList (secNodes secs)).lookup "top".toList = some s.marginTop ∧
    (attrsOf "pageMargins".toList (secNodes secs)).lookup "bottom".toList = some s.marginBottom ∧
    (attrsOf "pageMargins".toList (secNodes secs)).lookup "header".toList = some s.marginHeader ∧
    (attrsOf "pageMargins".toList (secNodes secs)).lookup "footer".toList = some s.marginFooter := by
  rw [pageMargins_attrs h]
  unfold Setup.pageMarginsTree
  refine ⟨?_, ?_, ?_, ?_, ?_, ?_⟩ <;> look_attrs

/-! ### The element `headerFooter` -/

theorem child_absent {t : Text} {ts : List Tree} (h : ∀ x ∈ ts, treeTag x ≠ t) : Spec.child t (toNodes ts) = none := by
  rw [child_trees, List.find?_eq_none.mpr (fun x hx => by simpa using h x hx)]; rfl


theorem hf_nil (n : List (Text × Char)) : hfParts n [] = [] := rfl

theorem headerFooter_parts (s : Setup) : treeParts s.headerFooterTree =
    (attrIf (!s.scaleWithDoc) "scaleWithDoc".toList "0".toList ++ attrIf (!s.alignWithPage) "alignWithMargins".toList "0".toList,
     toNodes ((if s.header.isEmpty then [] else [.data "oddHeader".toList (expandHeader s.header) []]) ++
      (if s.footer.isEmpty then [] else [.data "oddFooter".toList (expandHeader s.footer) []]))) := by
  unfold Setup.headerFooterTree
  dsimp only
  cases s.header.isEmpty <;> cases s.footer.isEmpty <;> rfl

theorem read_headerFooter (hi : SetupInv s) (hs : SetupSafe s) (h : Secs s o chart secs) (ha : NoAmp s.header) (hb : NoAmp s.footer) :
    readHf "oddHeader".toList (secNodes secs) = some (hfParts hfNames s.header) ∧
    readHf "oddFooter".toList (secNodes secs) = some (hfParts hfNames s.footer) ∧
    attrFlag "scaleWithDoc".toList true (attrsOf "headerFooter".toList (secNodes secs)) = some s.scaleWithDoc ∧
    attrFlag "alignWithMargins".toList true (attrsOf "headerFooter".toList (secNodes secs)) = some s.alignWithPage := by
  have hc := h.child h.headerFooter
  cases e : s.headFooterChanged with
  | false =>
    obtain ⟨h1, h2, h3, h4⟩ := hi.hf e
    simp only [e, Bool.false_eq_true, if_false, List.head?_nil, Option.map_none] at hc
    unfold readHf attrsOf kidsOf
    rw [hc, h1, h2, h3, h4]
    exact ⟨rfl, rfl, rfl, rfl⟩
  | true =>
    simp only [e, if_true, List.head?_cons, Option.map_some] at hc
    unfold readHf attrsOf kidsOf
    simp only [hc, Option.map_some, Option.getD_some, headerFooter_parts]
    have hh := data_text (t := "oddHeader".toList) (expandHeader_safe hs.header)
    have hf := data_text (t := "oddFooter".toList) (expandHeader_safe hs.footer)
    refine ⟨?_, ?_, ?_, ?_⟩
    · cases e1 : s.header.isEmpty
      · simp only [Bool.false_eq_true, if_false, List.singleton_append]
        rw [child_head (t := "oddHeader".toList) _ _ rfl]
        dsimp only
        rw [hh, Option.map_some, expandHeader_parts ha]
      · simp only [if_true, List.nil_append]
        rw [List.isEmpty_iff.mp e1, child_absent]
        · rfl
        · intro x hx
          split at hx
          · cases hx
          · rw [List.mem_singleton] at hx
            subst hx
            exact (by decide : "oddFooter".toList ≠ "oddHeader".toList)
    · rw [toNodes_append, child_append, child_absent (by
        intro x hx
        split at hx
        · cases hx
        · rw [List.mem_singleton] at hx
          subst hx
          exact (by decide : "oddHeader".toList ≠ "oddFooter".toList))]
      cases e1 : s.footer.isEmpty
      · simp only [Bool.false_eq_true, if_false, Option.none_or]
        rw [child_head (t := "oddFooter".toList) _ _ rfl]
        dsimp only
        rw [hf, Option.map_some, expandHeader_parts hb]
      · rw [List.isEmpty_iff.mp e1]
        rfl
    · rw [flag_default (v := "0".toList) (b := !s.scaleWithDoc) rfl (by look_attrs)]
      cases s.scaleWithDoc <;> rfl
    · rw [flag_default (v := "0".toList) (b := !s.alignWithPage) rfl (by look_attrs)]
      cases s.alignWithPage <;> rfl

/-! ### The element `sheetPr` -/

/-- A colour that a tab can show. -/
def Setup.hasTab (s : Setup) : Bool := s.tabColor ≠ .default && s.tabColor ≠ .automatic

theorem sheetPr_kids (h : Secs s o chart secs) :
    kidsOf "sheetPr".toList (secNodes secs) = if s.fitToPage || s.symbolsAbove || s.symbolsLeft || s.hasTab then
      toNodes ((if s.fitToPage then [.empty "pageSetUpPr".toList [("fitToPage".toList, "1".toList)]] else []) ++
        ((if s.tabColor ≠ .default then [.empty "tabColor".toList s.tabColor.attributes] else []) ++
         (if s.symbolsAbove || s.symbolsLeft then
          [.empty "outlinePr".toList (attrIf s.symbolsAbove "summaryBelow".toList "0".toList ++
            attrIf s.symbolsLeft "summaryRight".toList "0".toList)] else []))) else [] := by
  unfold kidsOf
  rw [h.child h.sheetPr]
  unfold Setup.sheetPrTrees
  dsimp only
  rw [show (decide (s.tabColor ≠ .default) && decide (s.tabColor ≠ .automatic)) = s.hasTab from rfl]
  split
  · rename_i hb
    simp only [Bool.and_eq_true, Bool.not_eq_true'] at hb
    obtain ⟨⟨⟨⟨⟨⟨b1, b2⟩, b3⟩, b4⟩, b5⟩, b6⟩, b7⟩ := hb
    rw [b2, b3, b6, b7]
    rfl
  · split <;> rfl

theorem child_if {b : Prop} [Decidable b] {n : Str} {as : Attrs} {t : Text} (hx : n ≠ t) :
    Spec.child t (toNodes (if b then [.empty n as] else [])) = none := by
  apply child_absent
  intro y hy
  split at hy
  · rw [List.mem_singleton] at hy; subst hy; exact hx
  · cases hy

theorem child_if_eq {b : Prop} [Decidable b] {x : Tree} {t : Text} (hx : treeTag x = t) :
    Spec.child t (toNodes (if b then [x] else [])) = if b then some (treeParts x) else none := by
  split
  · exact child_head x [] hx
  · rfl

theorem child_pageSetUpPr (h : Secs s o chart secs) :
    Spec.child "pageSetUpPr".toList (kidsOf "sheetPr".toList (secNodes secs)) =
      if s.fitToPage then some ([("fitToPage".toList, "1".toList)], []) else none := by
  rw [sheetPr_kids h]
  cases e : s.fitToPage
  · split
    · rw [toNodes_append, toNodes_append, child_append, child_append]
      rw [child_if (n := "tabColor".toList) (by decide),
        child_if (n := "outlinePr".toList) (by decide)]
      rfl
    · rfl
  · simp only [Bool.true_or, if_true, List.singleton_append]
    exact child_head _ _ rfl

theorem child_tabColor (h : Secs s o chart secs) :
    Spec.child "tabColor".toList (kidsOf "sheetPr".toList (secNodes secs)) =
      if (s.fitToPage || s.symbolsAbove || s.symbolsLeft || s.hasTab) = true ∧ s.tabColor ≠ .default
      then some (s.tabColor.attributes, []) else none := by
  rw [sheetPr_kids h]
  by_cases hb : (s.fitToPage || s.symbolsAbove || s.symbolsLeft || s.hasTab) = true
  · rw [if_pos hb, toNodes_append, toNodes_append, child_append, child_append,
      child_if (n := "pageSetUpPr".toList) (by decide), child_if (n := "outlinePr".toList) (by decide),
      child_if_eq (t := "tabColor".toList) (x := .empty "tabColor".toList s.tabColor.attributes) rfl]
    simp only [hb, true_and, Option.none_or, Option.or_none]
    rfl
  · rw [if_neg hb, if_neg (fun h => hb h.1)]
    rfl

theorem child_outlinePr (h : Secs s o chart secs) :
    Spec.child "outlinePr".toList (kidsOf "sheetPr".toList (secNodes secs)) =
      if s.symbolsAbove || s.symbolsLeft then some (attrIf s.symbolsAbove "summaryBelow".toList "0".toList ++
            attrIf s.symbolsLeft "summaryRight".toList "0".toList, []) else none := by
  rw [sheetPr_kids h]
  by_cases hb : (s.fitToPage || s.symbolsAbove || s.symbolsLeft || s.hasTab) = true
  · rw [if_pos hb, toNodes_append, toNodes_append, child_append, child_append,
      child_if (n := "pageSetUpPr".toList) (by decide), child_if (n := "tabColor".toList) (by decide),
      child_if_eq (t := "outlinePr".toList) (x := .empty "outlinePr".toList _) rfl]
    simp only [Option.none_or]
    rfl
  · rw [if_neg hb]
    have : s.symbolsAbove = false ∧ s.symbolsLeft = false := by
      cases h1 : s.symbolsAbove <;> cases h2 : s.symbolsLeft <;> simp_all
    rw [this.1, this.2]
    rfl

theorem read_scaling (hi : SetupInv s) (h : Secs s o chart secs) : readScaling (secNodes secs) = some s.scaling := by
  obtain ⟨-, -, -, -, -, -, h1, h2, h3⟩ := read_pageSetup hi h
  unfold readScaling Setup.scaling
  rw [h1]
  unfold attrsOf at *
  rw [child_pageSetUpPr h]
  cases e : s.fitToPage
  · rw [(h3 e).1, (h3 e).2]
    rfl
  · rw [(h2 e).1, (h2 e).2]
    rfl

/-! ### All page settings -/

/-- What is read from the settings of a sheet. -/
theorem read_page (hi : SetupInv s) (hs : SetupSafe s) (h : Secs s o chart secs) (ha : NoAmp s.header) (hb : NoAmp s.footer)
    (hf : s.firstPageNumber ≤ 1) : readPage (secNodes secs) = some
      ⟨s.paperSize, !s.isPortrait, s.scaling, !s.defaultPageOrder, if s.firstPageNumber = 0 then none else some s.firstPageNumber,
       s.blackAndWhite, s.draft, s.marginLeft, s.marginRight, s.marginTop, s.marginBottom, s.marginHeader, s.marginFooter,
       s.centerHorizontally, s.centerVertically, s.headings, s.printGridlines, hfParts hfNames s.header, hfParts hfNames s.footer,
       s.scaleWithDoc, s.alignWithPage⟩ := by
  obtain ⟨p1, p2, p3, p4, p5, p6, -, -, -⟩ := read_pageSetup hi h
  obtain ⟨q1, q2, q3, q4⟩ := read_printOptions hi h
  obtain ⟨m1, m2, m3, m4, m5, m6⟩ := read_margins h
  obtain ⟨h1, h2, h3, h4⟩ := read_headerFooter hi hs h ha hb
  unfold readPage
  rw [p1, p2, p3, p4 hf, p5, p6, q1, q2, q3, q4, m1, m2, m3, m4, m5, m6, h1, h2, h3, h4, read_scaling hi h]

/-- A call of the page settings that works: its texts can be written, a header or footer has no `&&[` in it, and the number of
the first page is 1. -/
def PageCall (c : SetupCall) : Prop :=
  CallSafe c ∧ HfCall c ∧ ∀ n, c = .firstPageNumber n → n = 1

theorem run_noAmp {calls : List SetupCall} (h : ∀ c ∈ calls, HfCall c) :
    NoAmp (Setup.run {} calls).header ∧ NoAmp (Setup.run {} calls).footer := by
  refine run_keeps (fun s => NoAmp s.header ∧ NoAmp s.footer) calls (fun s c hc hs => ?_) ⟨fun a b e => ?_, fun a b e => ?_⟩
  · have := h c hc
    cases c <;> simp only [Setup.exec] <;> (repeat' split) <;> first
      | exact hs
      | exact ⟨this.1, hs.2⟩
      | exact ⟨hs.1, this.1⟩
  · have := congrArg List.length e
    simp at this
  · have := congrArg List.length e
    simp at this

theorem exec_firstPage (s : Setup) (c : SetupCall) :
    (s.exec c).2.firstPageNumber = match c with | .firstPageNumber n => n | _ => s.firstPageNumber := by
  cases c <;> simp only [Setup.exec] <;> (repeat' split) <;> rfl

theorem run_firstPage {calls : List SetupCall} (h : ∀ c ∈ calls, PageCall c) :
    (Setup.run {} calls).firstPageNumber ≤ 1 ∧
    (if (Setup.run {} calls).firstPageNumber = 0 then none else some (Setup.run {} calls).firstPageNumber) = (pageMeant calls).firstPage := by
  constructor
  · refine run_keeps (fun s => s.firstPageNumber ≤ 1) calls (fun s c hc hs => ?_) (Nat.zero_le _)
    have := (h c hc).2.2
    cases c <;> simp only [Setup.exec] <;> (repeat' split) <;> first
      | exact hs
      | exact Nat.le_of_eq (this _ rfl)
  · refine run_field (fun s => if s.firstPageNumber = 0 then none else some s.firstPageNumber) _ calls (fun s c hc => ?_) {}
    have hn := (h c hc).2.2
    have he := exec_firstPage s c
    rw [he]
    cases c <;> first
      | rfl
      | (have := hn _ rfl; subst this; rfl)

theorem page_run {calls : List SetupCall} (h : ∀ c ∈ calls, PageCall c) (hsec : Secs (Setup.run {} calls) o chart secs) :
    readPage (secNodes secs) = some (pageMeant calls) := by
  have hhf : ∀ c ∈ calls, HfCall c := fun c hc => (h c hc).2.1
  have hn := run_noAmp hhf
  have hfp := run_firstPage h
  rw [read_page (setupInv_run calls) (setupSafe_run fun c hc => (h c hc).1) hsec hn.1 hn.2 hfp.1, hfp.2,
    run_paperSize, run_portrait, run_scaling, run_order, run_bw, run_draft, run_left, run_right, run_top, run_bottom, run_marginHeader,
    run_marginFooter, run_centerH, run_centerV, run_headings, run_gridlines, run_header calls hhf, run_footer calls hhf,
    run_scaleWithDoc, run_align]

/-- C59: the page settings that a reader finds in the file of a worksheet are those of the last calls: paper, orientation,
scale or pages to fit, order, margins, centring, headings, gridlines, header and footer with their variables. Missing: the
number of the first page is right only if it is 1 (`C59_first_page_lost`), and a header or footer must not have `&&[` in it
(`C59_literal_variable_replaced`). -/
theorem C59_page_settings_partial (calls : List SetupCall) (h : ∀ c ∈ calls, PageCall c) (o : SheetRest) (ho : RestOk o) :
    (parseDoc (writePart (worksheetTree (Setup.run {} calls) o))).bind (inRoot "worksheet".toList readPage) =
      some (pageMeant calls) := by
  have hs := setupSafe_run fun c hc => (h c hc).1
  rw [C07_part_roundtrip _ (worksheet_ok hs ho), Option.bind_some]
  unfold worksheetTree
  simp only [Tree.toNode, inRoot, if_true]
  exact page_run h (secs_worksheet hs ho)

/-- C59 for chartsheets. -/
theorem C59_chartsheet_settings_partial (calls : List SetupCall) (h : ∀ c ∈ calls, PageCall c) (o : SheetRest) (ho : RestOk o) :
    (parseDoc (writePart (chartsheetTree (Setup.run {} calls) o))).bind (inRoot "chartsheet".toList readPage) =
      some (pageMeant calls) := by
  have hs := setupSafe_run fun c hc => (h c hc).1
  rw [C07_part_roundtrip _ (chartsheet_ok hs ho), Option.bind_some]
  unfold chartsheetTree
  simp only [Tree.toNode, inRoot, if_true]
  exact page_run h (secs_chartsheet hs ho)

/-- A sheet with nothing else on it. -/
theorem restOk_empty : RestOk {} where
  codeName := fun n h => by cases h
  dimension := by decide
  format := attrsGood_nil
  cols := fun t h => by cases h
  sheetData := by decide
  autoFilter := fun t h => by cases h
  mergeCells := fun t h => by cases h
  conditional := fun t h => by cases h
  validations := fun t h => by cases h
  hyperlinks := fun t h => by cases h
  drawing := fun t h => by cases h
  legacyDrawing := fun t h => by cases h
  legacyDrawingHF := fun t h => by cases h
  picture := fun t h => by cases h
  tableParts := fun t h => by cases h
  extLst := fun t h => by cases h

/-- The hypotheses of C59 hold for a landscape sheet on A4, 75 percent, with a header. -/
theorem C59_witness : ∃ calls : List SetupCall, (∀ c ∈ calls, PageCall c) ∧
    calls = [.paperSize 9, .landscape, .printScale 75, .header "&L&[Date]&RPage &[Page] of &[Pages]".toList, .firstPageNumber 1] ∧
    (pageMeant calls).paper = 9 ∧ (pageMeant calls).landscape = true ∧ (pageMeant calls).scaling = .percent 75 ∧
    (pageMeant calls).header = hfParts [] "&L&D&RPage &P of &N".toList := by
  refine ⟨_, fun c hc => ?_, rfl, by decide, by decide, by decide, by decide +kernel⟩
  simp only [List.mem_cons, List.not_mem_nil, or_false] at hc
  rcases hc with rfl | rfl | rfl | rfl | rfl
  · exact ⟨trivial, trivial, fun n h => by cases h⟩
  · exact ⟨trivial, trivial, fun n h => by cases h⟩
  · exact ⟨trivial, trivial, fun n h => by cases h⟩
  · have hn : NoAmp "&L&[Date]&RPage &[Page] of &[Pages]".toList := by
      intro a b e
      have h : ∀ k, k ≤ 34 → ("&L&[Date]&RPage &[Page] of &[Pages]".toList.drop k).take 3 ≠ "&&[".toList := by decide +kernel
      have hl := congrArg List.length e
      simp at hl
      apply h a.length (by omega)
      rw [e, List.drop_left]
      rfl
    exact ⟨(by decide +kernel : attrSafe _ = true), ⟨hn, by decide +kernel⟩, fun n h => by cases h⟩
  · exact ⟨trivial, trivial, fun n h => by cases h; rfl⟩

/-- F123: the number of the first page, if it is not 1, is not a page number in the file: `useFirstPageNumber` is a flag, and is
given the number. -/
theorem C59_first_page_lost :
    (pageMeant [.firstPageNumber 5]).firstPage = some 5 ∧
    (parseDoc (writePart (worksheetTree (Setup.run {} [.firstPageNumber 5]) {}))).bind
      (inRoot "worksheet".toList fun ks => readFirstPage (attrsOf "pageSetup".toList ks)) = none ∧
    (parseDoc (writePart (worksheetTree (Setup.run {} [.firstPageNumber 5]) {}))).bind
      (inRoot "worksheet".toList fun ks => (attrsOf "pageSetup".toList ks).lookup "useFirstPageNumber".toList) = some "5".toList := by
  refine ⟨by decide, ?_, ?_⟩
  · rw [C07_part_roundtrip _ (worksheet_ok (setupSafe_run fun c hc => by simp at hc; subst hc; trivial) restOk_empty)]
    decide +kernel
  · rw [C07_part_roundtrip _ (worksheet_ok (setupSafe_run fun c hc => by simp at hc; subst hc; trivial) restOk_empty)]
    decide +kernel

/-- F127: `&&` is an ampersand, so `&&[Page]` is the text `&[Page]`; the writer makes it the text `&P`. -/
theorem C59_literal_variable_replaced :
    (pageMeant [.header "&&[Page]".toList]).header = hfParts hfNames "&&[Page]".toList ∧
    hfParts hfNames "&&[Page]".toList = .code '&' :: "[Page]".toList.map HfPart.char ∧
    (parseDoc (writePart (worksheetTree (Setup.run {} [.header "&&[Page]".toList]) {}))).bind
      (inRoot "worksheet".toList (readHf "oddHeader".toList)) = some [.code '&', .char 'P'] := by
  refine ⟨by decide +kernel, by decide +kernel, ?_⟩
  rw [C07_part_roundtrip _ (worksheet_ok (setupSafe_run fun c hc => by rw [List.mem_singleton] at hc; subst hc; exact (by decide : attrSafe "&&[Page]".toList = true)) restOk_empty)]
  decide +kernel

end Verif
