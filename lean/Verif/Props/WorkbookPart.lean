import Verif.Spec.WorkbookPart
import Verif.Props.DefinedNames
import Verif.Props.View
import Verif.Props.SetupPart
import Verif.Props.ChartDoc
/-!
C67: the workbook part says what the calls asked for.
-/
namespace Verif
open Spec

/-! ### Reading the elements -/

theorem readState_attr (v : Visible) (r : Attrs) (h : "state".toList ∉ r.map Prod.fst) :
    readState ((stateAttr v ++ r).lookup "state".toList) = some v := by
  cases v
  · show readState (r.lookup _) = _
    rw [lookup_none_of h]; rfl
  · show readState (List.lookup _ (("state".toList, "hidden".toList) :: r)) = _
    rw [look_eq]; decide +kernel
  · show readState (List.lookup _ (("state".toList, "veryHidden".toList) :: r)) = _
    rw [look_eq]; decide +kernel

theorem stateAttr_look (v : Visible) {k : Str} (h : k ≠ "state".toList) (r : Attrs) :
    (stateAttr v ++ r).lookup k = r.lookup k := by
  cases v
  · rfl
  · exact look_ne h _ _
  · exact look_ne h _ _

theorem readSheetEl_tree (n : Str) (v : Visible) (i : Nat) :
    readSheetEl (treeParts (sheetTree n v i)) = some ⟨n, i, v, relStr i⟩ := by
  unfold readSheetEl sheetTree treeParts
  dsimp only [List.cons_append, List.nil_append]
  rw [look_eq, attrNat, look_ne (by decide), look_eq, Option.bind_some, readNat_showNat,
    look_ne (by decide), look_ne (by decide), readState_attr v _ (by show _ ∉ ["r:id".toList]; decide),
    look_ne (by decide), look_ne (by decide), stateAttr_look v (by decide), look_eq]

theorem attrNat?_if {n : Str} {b : Bool} {k : Nat} {as : Attrs}
    (h : as.lookup n = if b then some (showNat k) else none) :
    attrNat? n as = some (if b then some k else none) := by
  unfold attrNat?
  rw [h]
  cases b
  · rfl
  · show (readNat (showNat k)).map some = _
    rw [readNat_showNat]; rfl

theorem readDefinedName_tree (d : DefName) (h : attrSafe d.range = true) :
    readDefinedName (treeParts (definedNameTree d)) = some d.written := by
  have h1 : ((treeParts (definedNameTree d)).1.lookup "name".toList) = some d.writtenName := look_eq _ _ _
  have h2 : attrNat? "localSheetId".toList (treeParts (definedNameTree d)).1 = some d.written.localSheetId := by
    rw [attrNat?_if (b := decide (d.kind ≠ .global)) (k := d.index)]
    · unfold DefName.written
      by_cases e : d.kind = .global <;> simp [e]
    · show List.lookup _ (("name".toList, d.writtenName) :: (attrIf _ _ _ ++ attrIf _ _ _)) = _
      rw [look_ne (by decide), attrIf_eq, attrIf_ne' (by decide)]
  have h3 : attrFlag "hidden".toList false (treeParts (definedNameTree d)).1 = some d.written.hidden := by
    refine flag_if _ _ ?_
    show List.lookup _ (("name".toList, d.writtenName) :: (attrIf _ _ _ ++ attrIf _ _ _)) = _
    rw [look_ne (by decide), attrIf_ne (by decide), attrIf_eq']
    rfl
  have h4 : textOnly (treeParts (definedNameTree d)).2 = some d.range := by
    show textOnly (if d.range = [] then [] else [Node.text (excelControlEscape d.range)]) = _
    rw [textOnly_data, escape_attrSafe h]
  unfold readDefinedName
  rw [h1, h2, h3, h4]
  rfl

/-- All elements have the tag. -/
theorem elems_all {t : Text} {ts : List Tree} (h : ∀ x ∈ ts, treeTag x = t) : elems t (toNodes ts) = ts.map treeParts := by
  rw [elems_trees, List.filter_eq_self.mpr (fun x hx => decide_eq_true (h x hx))]

/-- The sheets as a reader sees them. -/
def sheetsSeen (sheets : List WbSheet) : List SheetSeen :=
  sheets.mapIdx fun i s => ⟨s.names.name, (i + 1) % 65536, s.view.visible, relStr ((i + 1) % 65536)⟩

theorem sheets_mapM (sheets : List WbSheet) :
    (elems "sheet".toList (treeParts (sheetsTree sheets)).2).mapM readSheetEl = some (sheetsSeen sheets) := by
  show (elems "sheet".toList (toNodes (sheets.mapIdx fun i s =>
    sheetTree s.names.name s.view.visible ((i + 1) % 65536)))).mapM readSheetEl = _
  rw [elems_all]
  · rw [List.mapM_map]
    have : (sheets.mapIdx fun i s => sheetTree s.names.name s.view.visible ((i + 1) % 65536)) =
        (sheetsSeen sheets).map fun x => sheetTree x.name x.state x.id := by
      unfold sheetsSeen
      apply List.ext_getElem?
      intro i
      rw [List.getElem?_map, List.getElem?_mapIdx, List.getElem?_mapIdx]
      cases sheets[i]? <;> rfl
    rw [this, mapM_map]
    have hg : ∀ x ∈ sheetsSeen sheets, readSheetEl (treeParts (sheetTree x.name x.state x.id)) = some (id x) := by
      intro x hx
      rw [readSheetEl_tree]
      unfold sheetsSeen at hx
      obtain ⟨i, hi, rfl⟩ := List.mem_mapIdx.mp hx
      rfl
    exact (mapM_some_of_forall hg).trans (by rw [List.map_id])
  · intro x hx
    obtain ⟨i, hi, rfl⟩ := List.mem_mapIdx.mp hx
    rfl

/-- The children of the workbook element. -/
def wbKids (b : WBook) (names : List DefName) : List Tree :=
  ([fileVersionTree b.xlsm] ++
     ((if b.readOnly then [.empty "fileSharing".toList [("readOnlyRecommended".toList, "1".toList)]] else []) ++
      ([workbookPrTree b.codename, bookViewsTree b, sheetsTree b.sheets] ++
       (definedNamesTrees names ++
        [.empty "calcPr".toList [("calcId".toList, "124519".toList), ("fullCalcOnLoad".toList, "1".toList)]]))))

theorem wb_child {b : WBook} {names : List DefName} {t : Text} (h1 : t ≠ "fileVersion".toList)
    (h2 : t ≠ "fileSharing".toList) :
    child t (toNodes (wbKids b names)) = child t (toNodes ([workbookPrTree b.codename, bookViewsTree b,
      sheetsTree b.sheets] ++ (definedNamesTrees names ++
        [.empty "calcPr".toList [("calcId".toList, "124519".toList), ("fullCalcOnLoad".toList, "1".toList)]]))) := by
  unfold wbKids
  rw [List.cons_append, child_skip _ _ (fun e => h1 e.symm), List.nil_append]
  cases b.readOnly
  · rfl
  · rw [if_pos rfl, List.cons_append, child_skip _ _ (fun e => h2 e.symm), List.nil_append]

theorem readWorkbook_tree (b : WBook) (names : List DefName) (hn : ∀ d ∈ names, attrSafe d.range = true) :
    readWorkbook (workbookTree b names).toNode = some
      { sheets := sheetsSeen b.sheets, activeTab := b.activeTab, names := names.map DefName.written
        readOnly := b.readOnly, codename := b.codename } := by
  have e1 : child "sheets".toList (toNodes (wbKids b names)) = some (treeParts (sheetsTree b.sheets)) := by
    rw [wb_child (by decide) (by decide)]
    simp only [List.cons_append]
    rw [child_skip (workbookPrTree b.codename) _ (by decide : "workbookPr".toList ≠ _), child_skip (bookViewsTree b) _ (by decide : "bookViews".toList ≠ _),
      child_head (t := "sheets".toList) _ _ rfl]
  have e2 : child "bookViews".toList (toNodes (wbKids b names)) = some (treeParts (bookViewsTree b)) := by
    rw [wb_child (by decide) (by decide)]
    simp only [List.cons_append]
    rw [child_skip (workbookPrTree b.codename) _ (by decide : "workbookPr".toList ≠ _), child_head (t := "bookViews".toList) _ _ rfl]
  have e3 : child "workbookPr".toList (toNodes (wbKids b names)) = some (treeParts (workbookPrTree b.codename)) := by
    rw [wb_child (by decide) (by decide)]
    simp only [List.cons_append]
    rw [child_head (t := "workbookPr".toList) _ _ rfl]
  have e4 : readNames (toNodes (wbKids b names)) = some (names.map DefName.written) := by
    unfold readNames
    rw [wb_child (by decide) (by decide)]
    simp only [List.cons_append, List.nil_append]
    rw [child_skip (workbookPrTree b.codename) _ (by decide : "workbookPr".toList ≠ _), child_skip (bookViewsTree b) _ (by decide : "bookViews".toList ≠ _),
      child_skip (sheetsTree b.sheets) _ (by decide : "sheets".toList ≠ _)]
    unfold definedNamesTrees
    cases names with
    | nil => rfl
    | cons d ds =>
      rw [if_neg (by simp), List.cons_append, child_head (t := "definedNames".toList) _ _ rfl]
      show (elems _ (toNodes ((d :: ds).map definedNameTree))).mapM readDefinedName = _
      rw [elems_all]
      · rw [List.mapM_map, mapM_map]
        exact mapM_some_of_forall (f := fun d => (readDefinedName ∘ treeParts) (definedNameTree d))
          fun x hx => readDefinedName_tree x (hn x hx)
      · intro x hx
        obtain ⟨y, _, rfl⟩ := List.mem_map.mp hx
        rfl
  have e5 : readActiveTab (toNodes (wbKids b names)) = some b.activeTab := by
    unfold readActiveTab
    rw [e2]
    dsimp only
    have e : child "workbookView".toList (treeParts (bookViewsTree b)).2 = some (treeParts (.empty "workbookView".toList
        ([("xWindow".toList, "240".toList), ("yWindow".toList, "15".toList),
          ("windowWidth".toList, "16095".toList), ("windowHeight".toList, "9660".toList)] ++
         (attrIf (decide (b.firstSheet > 0)) "firstSheet".toList (showNat (b.firstSheet + 1)) ++
          attrIf (decide (b.activeTab > 0)) "activeTab".toList (showNat b.activeTab))))) :=
      child_head (t := "workbookView".toList) _ _ rfl
    rw [e]
    show attrNatD _ _ (_ ++ (attrIf _ _ _ ++ attrIf _ _ _)) = _
    unfold attrNatD
    rw [look_append (by decide), attrIf_ne (by decide), attrIf_eq']
    cases h : b.activeTab with
    | zero => rfl
    | succ n =>
      rw [if_pos (by simp)]
      exact readNat_showNat _
  have e6 : readRecommended (toNodes (wbKids b names)) = some b.readOnly := by
    unfold readRecommended wbKids
    rw [List.cons_append, child_skip _ _ (by show "fileVersion".toList ≠ _; decide), List.nil_append]
    cases b.readOnly
    · rw [if_neg (by decide), List.nil_append]
      simp only [List.cons_append, List.nil_append]
      rw [child_skip (workbookPrTree b.codename) _ (by decide : "workbookPr".toList ≠ _),
        child_skip (bookViewsTree b) _ (by decide : "bookViews".toList ≠ _),
        child_skip (sheetsTree b.sheets) _ (by decide : "sheets".toList ≠ _)]
      unfold definedNamesTrees
      cases names with
      | nil => rfl
      | cons d ds =>
        rw [if_neg (by simp), List.cons_append, child_skip _ _ (by show "definedNames".toList ≠ _; decide)]
        rfl
    · rw [if_pos rfl, List.cons_append, child_head (t := "fileSharing".toList) _ _ rfl]
      rfl
  have e7 : ((child "workbookPr".toList (toNodes (wbKids b names))).bind fun e => e.1.lookup "codeName".toList) =
      b.codename := by
    rw [e3, Option.bind_some]
    show (attrIf _ _ _ ++ _).lookup _ = _
    rw [attrIf_eq]
    cases b.codename <;> rfl
  show readWorkbook (.elem "workbook".toList _ (toNodes (wbKids b names))) = _
  unfold readWorkbook
  dsimp only
  rw [if_neg (by simp), e1]
  dsimp only
  rw [sheets_mapM, e4, e5, e6, e7]

/-! ### The part is well formed -/

/-- A defined name whose texts can be written. -/
def NameSafe (d : DefName) : Prop := attrSafe d.range = true ∧ attrSafe d.writtenName = true

theorem sheetTree_ok {n : Str} (h : attrSafe n = true) (v : Visible) (i : Nat) : treeOk (sheetTree n v i) = true := by
  have hr : attrSafe (relStr i) = true := by
    unfold relStr
    exact attrSafe_append (by decide) (showNat_attrSafe i)
  refine treeOk_empty (by decide) ?_
  have h1 : attrsGood (stateAttr v ++ [("r:id".toList, relStr i)]) := by
    have h0 : attrsGood [("r:id".toList, relStr i)] := attrsGood_one (by decide) hr
    cases v
    · exact h0
    · exact attrsGood_cons (attrOk_of (by decide) (by decide)) h0 (by show _ ∉ ["r:id".toList]; decide)
    · exact attrsGood_cons (attrOk_of (by decide) (by decide)) h0 (by show _ ∉ ["r:id".toList]; decide)
  have hm : ∀ k : Str, k ≠ "state".toList → k ≠ "r:id".toList →
      k ∉ (stateAttr v ++ [("r:id".toList, relStr i)]).map Prod.fst := by
    intro k hk1 hk2 hk
    cases v
    · have : k ∈ ["r:id".toList] := hk
      rw [List.mem_singleton] at this
      exact hk2 this
    · have : k ∈ ["state".toList, "r:id".toList] := hk
      simp only [List.mem_cons, List.not_mem_nil, or_false] at this
      exact this.elim hk1 hk2
    · have : k ∈ ["state".toList, "r:id".toList] := hk
      simp only [List.mem_cons, List.not_mem_nil, or_false] at this
      exact this.elim hk1 hk2
  have h2 : attrsGood (("sheetId".toList, showNat i) :: (stateAttr v ++ [("r:id".toList, relStr i)])) :=
    attrsGood_cons (attrOk_of (by decide) (showNat_attrSafe i)) h1 (hm _ (by decide) (by decide))
  refine attrsGood_cons (attrOk_of (by decide) h) h2 ?_
  show "name".toList ∉ "sheetId".toList :: (stateAttr v ++ [("r:id".toList, relStr i)]).map Prod.fst
  rw [List.mem_cons, not_or]
  exact ⟨by show "name".toList ≠ "sheetId".toList; decide, hm _ (by decide) (by decide)⟩

theorem data_ok {t d : Str} {as : Attrs} (ht : isName t = true) (h : attrSafe d = true) (ha : attrsGood as) :
    treeOk (.data t d as) = true := by
  have h0 := attrSafe_data ht h
  simp only [treeOk, Bool.and_eq_true] at h0 ⊢
  exact ⟨⟨⟨ht, List.all_eq_true.mpr ha.1⟩, decide_eq_true ha.2⟩, h0.2⟩

theorem definedNameTree_ok {d : DefName} (h : NameSafe d) : treeOk (definedNameTree d) = true := by
  refine data_ok (by decide) h.1 ?_
  refine attrsGood_cons (attrOk_of (by decide) h.2) ?_ (attrIf_names (by decide) (attrIf_names' (by decide)))
  exact attrIf_good (by decide) (fun _ => showNat_attrSafe _) (attrIf_names' (by decide))
    (attrIf_good' (by decide) (fun _ => by decide))

theorem workbookTree_ok (b : WBook) (names : List DefName) (hs : ∀ s ∈ b.sheets, attrSafe s.names.name = true)
    (hn : ∀ d ∈ names, NameSafe d) (hc : ∀ n, b.codename = some n → attrSafe n = true) :
    treeOk (workbookTree b names) = true := by
  have k1 : treeOk (fileVersionTree b.xlsm) = true := by
    cases b.xlsm <;> decide +kernel
  have k2 : treeOk (workbookPrTree b.codename) = true := by
    refine treeOk_empty (by decide) (attrIf_good (by decide) ?_ (by decide) (attrsGood_one (by decide) (by decide)))
    intro e
    obtain ⟨n, hn⟩ := Option.isSome_iff_exists.mp e
    rw [hn]
    exact hc n hn
  have k3 : treeOk (bookViewsTree b) = true := by
    refine treeOk_node (by decide) attrsGood_nil ?_
    intro k hk
    rw [List.mem_singleton] at hk
    subst hk
    refine treeOk_empty (by decide) ?_
    have g : attrsGood (attrIf (decide (b.firstSheet > 0)) "firstSheet".toList (showNat (b.firstSheet + 1)) ++
        attrIf (decide (b.activeTab > 0)) "activeTab".toList (showNat b.activeTab)) :=
      attrIf_good (by decide) (fun _ => showNat_attrSafe _) (attrIf_names' (by decide))
        (attrIf_good' (by decide) (fun _ => showNat_attrSafe _))
    have m : ∀ k : Str, k ≠ "firstSheet".toList → k ≠ "activeTab".toList →
        k ∉ (attrIf (decide (b.firstSheet > 0)) "firstSheet".toList (showNat (b.firstSheet + 1)) ++
        attrIf (decide (b.activeTab > 0)) "activeTab".toList (showNat b.activeTab)).map Prod.fst :=
      fun k h1 h2 => attrIf_names h1 (attrIf_names' h2)
    have m' : ∀ {k n v : Str} {r : Attrs}, k ≠ n → k ∉ r.map Prod.fst → k ∉ ((n, v) :: r).map Prod.fst := by
      intro k n v r h1 h2
      rw [List.map_cons, List.mem_cons, not_or]
      exact ⟨h1, h2⟩
    have o : ∀ {n v : Str}, isName n = true → attrSafe v = true → attrOk (n, v) = true := fun h1 h2 => attrOk_of h1 h2
    refine attrsGood_cons (o (by decide) (by decide)) ?_ (m' (by decide) (m' (by decide) (m' (by decide) (m _ (by decide) (by decide)))))
    refine attrsGood_cons (o (by decide) (by decide)) ?_ (m' (by decide) (m' (by decide) (m _ (by decide) (by decide))))
    refine attrsGood_cons (o (by decide) (by decide)) ?_ (m' (by decide) (m _ (by decide) (by decide)))
    exact attrsGood_cons (o (by decide) (by decide)) g (m _ (by decide) (by decide))
  have k4 : treeOk (sheetsTree b.sheets) = true := by
    refine treeOk_node (by decide) attrsGood_nil ?_
    intro k hk
    obtain ⟨i, hi, rfl⟩ := List.mem_mapIdx.mp hk
    exact sheetTree_ok (hs _ (List.getElem_mem hi)) _ _
  refine treeOk_node (by decide) ⟨by decide, by decide⟩ ?_
  intro k hk
  simp only [List.mem_append, List.mem_cons, List.not_mem_nil, or_false] at hk
  rcases hk with rfl | hk | (rfl | rfl | rfl) | hk | rfl
  · exact k1
  · split at hk
    · rw [List.mem_singleton] at hk
      subst hk
      decide +kernel
    · cases hk
  · exact k2
  · exact k3
  · exact k4
  · unfold definedNamesTrees at hk
    split at hk
    · cases hk
    · rw [List.mem_singleton] at hk
      subst hk
      refine treeOk_node (by decide) attrsGood_nil ?_
      intro k hk
      obtain ⟨d, hd, rfl⟩ := List.mem_map.mp hk
      exact definedNameTree_ok (hn d hd)
  · decide +kernel

/-- The text of the part, read back. -/
theorem workbook_reads (b : WBook) (names : List DefName) (hs : ∀ s ∈ b.sheets, attrSafe s.names.name = true)
    (hn : ∀ d ∈ names, NameSafe d) (hc : ∀ n, b.codename = some n → attrSafe n = true) :
    ∃ node, parseDoc (writePart (workbookTree b names)) = some node ∧ node = (workbookTree b names).toNode ∧
      readWorkbook node = some
        { sheets := sheetsSeen b.sheets, activeTab := b.activeTab, names := names.map DefName.written
          readOnly := b.readOnly, codename := b.codename } :=
  ⟨_, C07_part_roundtrip _ (workbookTree_ok b names hs hn hc), rfl, readWorkbook_tree b names fun d hd => (hn d hd).1⟩

/-! ### The texts of the names -/

theorem quoted_safe {U : Unicode} {s q : Str} (h : quoteSheetName U s = some q) (hs : attrSafe s = true) :
    attrSafe q = true := by
  rcases C03_quote_form U _ _ h with rfl | rfl
  · exact hs
  · rw [attrSafe_mem] at hs ⊢
    intro x hx
    simp only [List.mem_append, List.mem_cons, List.not_mem_nil, or_false, doubleQuotes, List.mem_flatMap] at hx
    rcases hx with (rfl | ⟨c, hc, hx⟩) | rfl
    · decide
    · split at hx
      · simp only [List.mem_cons, List.not_mem_nil, or_false, or_self] at hx
        subst hx; decide
      · simp only [List.mem_singleton] at hx
        subst hx; exact hs _ hc
    · decide

theorem column_safe (c : Nat) : attrSafe (columnNumberToName c) = true :=
  digit_attrSafe fun x hx => Or.inr (List.all_eq_true.mp (columnName_all c) x hx)

theorem rowsRange_safe (a b : Str) (ha : attrSafe a = true) (hb : attrSafe b = true) :
    attrSafe ('$' :: a ++ ":$".toList ++ b) = true := by
  refine attrSafe_append (attrSafe_append (a := '$' :: a) ?_ (by decide)) hb
  rw [attrSafe_cons, ha]; decide

theorem setRange_safe (d : DefName) (hq : attrSafe d.quoted = true) (hr : attrSafe d.range = true) :
    attrSafe d.setRange.range = true := by
  have one : ∀ r : Str, attrSafe r = true → attrSafe (d.quoted ++ '!' :: r) = true := by
    intro r h
    refine attrSafe_append hq ?_
    rw [attrSafe_cons, h]; decide
  have two : ∀ a b : Str, attrSafe a = true → attrSafe b = true →
      attrSafe (d.quoted ++ "!$".toList ++ a ++ ":$".toList ++ b) = true := fun a b ha hb =>
    attrSafe_append (attrSafe_append (attrSafe_append (attrSafe_append hq (by decide)) ha) (by decide)) hb
  have area : attrSafe (if d.firstCol = 0 ∧ d.lastCol = COL_MAX - 1 then
        '$' :: showNat (d.firstRow + 1) ++ ":$".toList ++ showNat (d.lastRow + 1)
      else if d.firstRow = 0 ∧ d.lastRow = ROW_MAX - 1 then
        '$' :: columnNumberToName d.firstCol ++ ":$".toList ++ columnNumberToName d.lastCol
      else cellRangeAbs d.firstRow d.firstCol d.lastRow d.lastCol) = true := by
    split
    · exact rowsRange_safe _ _ (showNat_attrSafe _) (showNat_attrSafe _)
    · split
      · exact rowsRange_safe _ _ (column_safe _) (column_safe _)
      · exact cellRangeAbs_attrSafe _ _ _ _
  have hc := two _ _ (column_safe d.firstCol) (column_safe d.lastCol)
  have hrow := two _ _ (showNat_attrSafe (d.firstRow + 1)) (showNat_attrSafe (d.lastRow + 1))
  unfold DefName.setRange
  split
  · exact one _ area
  · exact one _ area
  · dsimp only
    have hcols : attrSafe (if d.firstCol ≠ COL_MAX ∨ d.lastCol ≠ 0 then
        d.quoted ++ "!$".toList ++ columnNumberToName d.firstCol ++ ":$".toList ++
          columnNumberToName d.lastCol
      else []) = true := by
      split
      · exact hc
      · rfl
    revert hcols
    generalize (if d.firstCol ≠ COL_MAX ∨ d.lastCol ≠ 0 then
        d.quoted ++ "!$".toList ++ columnNumberToName d.firstCol ++ ":$".toList ++
          columnNumberToName d.lastCol
      else []) = cols
    intro hcols
    split
    · split
      · exact hrow
      · refine attrSafe_append hcols ?_
        rw [attrSafe_cons, hrow]; decide
    · exact hcols
  · exact hr

theorem initialize_safe {U : Unicode} (d : DefName) {q : Str} (hq : attrSafe q = true) (hk : d.kind ≠ .global)
    (hl : d.kind ≠ .local) (hr : attrSafe d.range = true) : NameSafe (d.initialize U q) := by
  have e : (d.initialize U q).range = ({ d with quoted := q } : DefName).setRange.range := rfl
  have k : (d.initialize U q).writtenName = d.writtenName := by
    unfold DefName.initialize DefName.setSortName DefName.setRange DefName.writtenName
    cases h : d.kind <;> simp_all
  refine ⟨by rw [e]; exact setRange_safe _ hq hr, ?_⟩
  rw [k]
  unfold DefName.writtenName
  cases h : d.kind
  · show attrSafe "_xlnm._FilterDatabase".toList = true; decide
  · exact absurd h hk
  · exact absurd h hl
  · show attrSafe "_xlnm.Print_Area".toList = true; decide
  · show attrSafe "_xlnm.Print_Titles".toList = true; decide

/-- The stored names of a sheet are of their kinds and have no text yet. -/
def FeatInv (s : SheetNames) : Prop :=
  ∀ d ∈ [s.autofilter, s.printArea, s.titles], d.range = [] ∧ (d.inUse = true → d.kind ≠ .global ∧ d.kind ≠ .local)

theorem featInv_exec {s : SheetNames} (h : FeatInv s) (op : SheetNameOp) : FeatInv (s.exec op) := by
  have h1 := h s.autofilter (by simp)
  have h2 := h s.printArea (by simp)
  have h3 := h s.titles (by simp)
  intro d hd
  cases op <;> simp only [SheetNames.exec, SheetNames.setAutofilter, SheetNames.setPrintArea,
    SheetNames.setRepeatRows, SheetNames.setRepeatColumns] at hd <;> (repeat' split at hd) <;>
    simp only [Option.getD_none, Option.getD_some, List.mem_cons, List.not_mem_nil, or_false] at hd <;>
    rcases hd with rfl | rfl | rfl <;>
    first | exact h1 | exact h2 | exact h3 | exact ⟨h1.1, fun _ => ⟨by simp, by simp⟩⟩ |
      exact ⟨h2.1, fun _ => ⟨by simp, by simp⟩⟩ | exact ⟨h3.1, fun _ => ⟨by simp, by simp⟩⟩

theorem featInv_after (p : Str × List SheetNameOp) : FeatInv (sheetAfter p) := by
  unfold sheetAfter
  have : ∀ (ops : List SheetNameOp) (s : SheetNames), FeatInv s → FeatInv (ops.foldl SheetNames.exec s) := by
    intro ops
    induction ops with
    | nil => intro s h; exact h
    | cons o r ih => intro s h; exact ih _ (featInv_exec h o)
  refine this _ _ ?_
  intro d hd
  simp only [List.mem_cons, List.not_mem_nil, or_false, or_self] at hd
  subst hd
  exact ⟨rfl, fun e => by cases e⟩

theorem collect_safe {U : Unicode} {s : SheetNames} {c : List DefName} (h : s.collect U = some c)
    (hf : FeatInv s) (hs : attrSafe s.name = true) : ∀ d ∈ c, NameSafe d := by
  unfold SheetNames.collect at h
  cases hq : quoteSheetName U s.name with
  | none => rw [hq] at h; cases h
  | some q =>
    rw [hq, Option.map_some, Option.some.injEq] at h
    subst h
    intro d hd
    obtain ⟨e, he, rfl⟩ := List.mem_map.mp hd
    obtain ⟨hm, hu⟩ := List.mem_filter.mp he
    obtain ⟨hr, hk⟩ := hf e hm
    exact initialize_safe e (quoted_safe hq hs) (hk hu).1 (hk hu).2 (by rw [hr]; rfl)

theorem collectAll_safe {U : Unicode} {l : List SheetNames} {c : List DefName} (h : collectAll U l = some c)
    (hf : ∀ s ∈ l, FeatInv s ∧ attrSafe s.name = true) : ∀ d ∈ c, NameSafe d := by
  induction l generalizing c with
  | nil => cases h; intro d hd; cases hd
  | cons s ss ih =>
    unfold collectAll at h
    cases h1 : s.collect U with
    | none => rw [h1] at h; cases h
    | some x =>
      cases h2 : collectAll U ss with
      | none => rw [h1, h2] at h; cases h
      | some y =>
        rw [h1, h2] at h
        have : c = x ++ y := by
          injection h with h
          exact h.symm
        subst this
        intro d hd
        rcases List.mem_append.mp hd with hd | hd
        · exact collect_safe h1 (hf s List.mem_cons_self).1 (hf s List.mem_cons_self).2 d hd
        · exact ih h2 (fun t ht => hf t (List.mem_cons_of_mem _ ht)) d hd

theorem attrSafe_sub {s t : Str} (h : attrSafe s = true) (hs : ∀ c ∈ t, c ∈ s) : attrSafe t = true := by
  rw [attrSafe_mem] at h ⊢
  exact fun c hc => h c (hs c hc)

theorem defineName_safe {U : Unicode} {n f : Str} {d : DefName} (h : defineName U n f = .ok d)
    (hn : attrSafe n = true) (hf : attrSafe f = true) : NameSafe d := by
  obtain ⟨h1, _, h3⟩ := defineName_ok h
  constructor
  · rw [h1]
    unfold formulaToString
    split
    · exact attrSafe_sub hf fun c hc => List.mem_cons_of_mem _ hc
    · exact hf
  · unfold DefName.writtenName
    split at h3
    · rw [h3.1]
      show attrSafe d.name = true
      rw [h3.2.2]
      exact attrSafe_sub hn fun c hc => List.dropWhile_sublist _ |>.subset (List.mem_of_mem_tail hc)
    · rw [h3.1]
      show attrSafe d.name = true
      rw [h3.2.2]
      exact hn

theorem resolved_safe {sheets : List Str} {ds r : List DefName} (h : Zip2 (Resolved sheets) ds r)
    (hd : ∀ d ∈ ds, NameSafe d) : ∀ d ∈ r, NameSafe d := by
  induction h with
  | nil => intro d hd; cases hd
  | cons h1 h2 ih =>
    intro d hm
    rcases List.mem_cons.mp hm with rfl | hm
    · rcases h1 with ⟨_, rfl⟩ | ⟨s, i, _, _, _, rfl⟩
      · exact hd _ List.mem_cons_self
      · have h0 := hd _ List.mem_cons_self
        exact ⟨h0.1, h0.2⟩
    · exact ih (fun d h => hd d (List.mem_cons_of_mem _ h)) d hm

theorem saveNames_safe {U : Unicode} {user : List DefName} {sheets : List SheetNames} {L : List DefName}
    (h : saveNames U user sheets = .ok L) (hu : ∀ d ∈ user, NameSafe d)
    (hf : ∀ s ∈ sheets, FeatInv s ∧ attrSafe s.name = true) : ∀ d ∈ L, NameSafe d := by
  obtain ⟨c, l, hc, hr, rfl⟩ := saveNames_ok h
  intro d hd
  refine resolved_safe (resolve_ok hr) ?_ d ((List.mergeSort_perm _ _).mem_iff.mp hd)
  intro e he
  rcases List.mem_append.mp he with he | he
  · exact hu e he
  · exact collectAll_safe hc hf e he

end Verif
