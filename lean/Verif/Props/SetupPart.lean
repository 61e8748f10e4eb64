import Verif.Props.SetupRun
import Verif.Props.MergeRange
import Verif.Props.CondOk
import Verif.Props.Misc
/-!
The worksheet part is well formed, and a reader finds each element of the settings in it.
-/
namespace Verif
open Spec

/-! ### Texts -/

theorem replaceAllN_safe {p r : Str} (hr : attrSafe r = true) (n : Nat) (s : Str) (h : attrSafe s = true) :
    attrSafe (replaceAllN p r n s) = true := by
  induction n generalizing s with
  | zero => exact h
  | succ n ih =>
    cases s with
    | nil => rfl
    | cons c s =>
      unfold replaceAllN
      split
      · refine attrSafe_append hr (ih _ ?_)
        rw [attrSafe_mem] at h ⊢
        exact fun x hx => h x (List.mem_of_mem_drop hx)
      · rw [attrSafe_cons, Bool.and_eq_true] at h ⊢
        exact ⟨h.1, ih _ h.2⟩

theorem expandHeader_safe {s : Str} (h : attrSafe s = true) : attrSafe (expandHeader s) = true := by
  unfold expandHeader
  iterate 8 refine replaceAllN_safe (by decide) _ _ ?_
  exact h

theorem expandHeader_nil : expandHeader [] = [] := rfl

theorem replaceAll_nil_iff {p r s : Str} (hp : p ≠ []) (hr : r ≠ []) : replaceAll p r s = [] ↔ s = [] := by
  cases s with
  | nil => exact ⟨fun _ => rfl, fun _ => rfl⟩
  | cons c s =>
    unfold replaceAll
    rw [List.length_cons]
    unfold replaceAllN
    split
    · simp [hr]
    · simp

theorem hexDigitU_safe (n : Nat) (h : n < 16) : attrSafe [hexDigitU n] = true := by
  have : ∀ n : Fin 16, attrSafe [hexDigitU n.val] = true := by decide
  exact this ⟨n, h⟩

theorem passwordAttr_safe {h : BitVec 16} {v : Str} (e : passwordAttr h = some v) : attrSafe v = true := by
  unfold passwordAttr at e
  split at e
  · cases e
  · cases e
    have := h.isLt
    rw [attrSafe_mem]
    intro c hc
    simp only [List.mem_cons, List.not_mem_nil, or_false] at hc
    rcases hc with rfl | rfl | rfl | rfl <;> exact hexDigitU_safe _ (by omega)

theorem passwordAttrs_good {h : BitVec 16} {r : Attrs} (hr : attrsGood r) (hk : "password".toList ∉ r.map Prod.fst) :
    attrsGood (passwordAttrs h ++ r) := by
  unfold passwordAttrs
  cases e : passwordAttr h with
  | none => exact hr
  | some v => exact attrsGood_cons (attrOk_of (by decide) (passwordAttr_safe e)) hr hk

theorem passwordAttrs_ne {h : BitVec 16} {r : Attrs} {k : Str} (hk : k ≠ "password".toList) :
    (passwordAttrs h ++ r).lookup k = r.lookup k := by
  unfold passwordAttrs
  cases passwordAttr h with
  | none => rfl
  | some v => exact look_ne hk v r

theorem attrIf_ne' {k n : Str} (h : k ≠ n) (b : Bool) (v : Str) : (attrIf b n v).lookup k = none := by
  cases b
  · rfl
  · exact look_ne h v []

theorem attrIf_eq' (b : Bool) (n v : Str) : (attrIf b n v).lookup n = if b then some v else none := by
  cases b
  · rfl
  · exact look_eq n v []

theorem attrIf_good' {b : Bool} {n v : Str} (hn : isName n = true) (hv : b = true → attrSafe v = true) : attrsGood (attrIf b n v) := by
  cases b
  · exact attrsGood_nil
  · exact attrsGood_one hn (hv rfl)

theorem attrIf_names' {k n : Str} {b : Bool} {v : Str} (hn : k ≠ n) : k ∉ (attrIf b n v).map Prod.fst := by
  cases b
  · intro h; cases h
  · intro h
    have : k ∈ [n] := h
    simp at this
    exact hn this

theorem names_cons {k n v : Str} {r : Attrs} (hn : k ≠ n) (h : k ∉ r.map Prod.fst) : k ∉ ((n, v) :: r).map Prod.fst := by
  simp [hn]; simpa using h

/-! ### The settings are safe -/

/-- Settings whose texts can be written. -/
structure SetupSafe (s : Setup) : Prop where
  header : attrSafe s.header = true
  footer : attrSafe s.footer = true
  margins : attrSafe s.marginLeft = true ∧ attrSafe s.marginRight = true ∧ attrSafe s.marginTop = true ∧
    attrSafe s.marginBottom = true ∧ attrSafe s.marginHeader = true ∧ attrSafe s.marginFooter = true
  selection : attrSafe s.selectedRange.1 = true ∧ attrSafe s.selectedRange.2 = true
  topLeft : attrSafe s.topLeftCell = true
  ranges : ∀ p ∈ s.unprotected, attrSafe p.1 = true ∧ attrSafe p.2.1 = true
  ignored : ∀ p ∈ s.ignoredErrors, attrSafe p.2 = true

/-- Calls whose texts can be written. -/
def CallSafe : SetupCall → Prop
  | .header t => attrSafe t = true
  | .footer t => attrSafe t = true
  | .margins l r t b h f => ∀ x ∈ [l, r, t, b, h, f], ∀ y, x = some y → attrSafe y = true
  | .unprotectRange _ name _ => attrSafe name = true
  | _ => True

theorem setMargin_safe {x : Str} {o : Option Str} (hx : attrSafe x = true) (ho : ∀ y, o = some y → attrSafe y = true) :
    attrSafe (setMargin x o) = true := by
  cases o with
  | none => exact hx
  | some y => exact ho y rfl

theorem addIgnored_mem {e : IgnoreError} {r : Str} {m : List (IgnoreError × Str)} (hr : attrSafe r = true)
    (h : ∀ p ∈ m, attrSafe p.2 = true) : ∀ p ∈ addIgnored e r m, attrSafe p.2 = true := by
  induction m with
  | nil =>
    intro p hp
    simp only [addIgnored, List.mem_singleton] at hp
    subst hp
    exact hr
  | cons q m ih =>
    obtain ⟨e', t⟩ := q
    intro p hp
    unfold addIgnored at hp
    split at hp
    · rcases List.mem_cons.mp hp with rfl | hp
      · refine attrSafe_append (h _ List.mem_cons_self) ?_
        rw [attrSafe_cons, hr]
        decide
      · exact h p (List.mem_cons_of_mem _ hp)
    · rcases List.mem_cons.mp hp with rfl | hp
      · exact h _ List.mem_cons_self
      · exact ih (fun p hp => h p (List.mem_cons_of_mem _ hp)) p hp

theorem setupSafe_exec {s : Setup} (h : SetupSafe s) {c : SetupCall} (hc : CallSafe c) : SetupSafe (s.exec c).2 := by
  obtain ⟨h1, h2, ⟨m1, m2, m3, m4, m5, m6⟩, ⟨h4, h4'⟩, h5, h6, h7⟩ := h
  cases c <;> simp only [Setup.exec] <;> (repeat' split) <;> constructor <;> try assumption
  all_goals first
    | exact ⟨m1, m2, m3, m4, m5, m6⟩
    | exact ⟨h4, h4'⟩
    | exact ⟨cell_attrSafe _ _, cellRange_attrSafe _ _ _ _⟩
    | exact cell_attrSafe _ _
    | exact addIgnored_mem (cellRange_attrSafe _ _ _ _) h7
    | skip
  · refine ⟨setMargin_safe m1 (hc _ ?_), setMargin_safe m2 (hc _ ?_), setMargin_safe m3 (hc _ ?_), setMargin_safe m4 (hc _ ?_),
      setMargin_safe m5 (hc _ ?_), setMargin_safe m6 (hc _ ?_)⟩ <;> simp
  all_goals
    intro p hp
    rcases List.mem_append.mp hp with hp | hp
    · exact h6 p hp
    · rw [List.mem_singleton] at hp
      subst hp
      refine ⟨cellRange_attrSafe _ _ _ _, ?_⟩
      first
      | exact attrSafe_append (by decide) (showNat_attrSafe _)
      | exact hc

theorem setupSafe_new : SetupSafe {} where
  header := rfl
  footer := rfl
  margins := by decide
  selection := by decide
  topLeft := rfl
  ranges := fun p hp => by cases hp
  ignored := fun p hp => by cases hp

theorem setupSafe_run {calls : List SetupCall} (h : ∀ c ∈ calls, CallSafe c) : SetupSafe (Setup.run {} calls) :=
  run_keeps SetupSafe calls (fun _ c hc hs => setupSafe_exec hs (h c hc)) setupSafe_new

/-! ### The elements can be written -/

/-- The other parts of the sheet can be written, and have the tags that they should have. -/
structure RestOk (o : SheetRest) : Prop where
  codeName : ∀ n, o.codeName = some n → attrSafe n = true
  dimension : attrSafe o.dimension = true
  format : attrsGood o.formatAttrs
  cols : ∀ t ∈ o.cols, treeOk t = true ∧ treeTag t = "cols".toList
  sheetData : treeOk o.sheetData = true ∧ treeTag o.sheetData = "sheetData".toList
  autoFilter : ∀ t ∈ o.autoFilter, treeOk t = true ∧ treeTag t = "autoFilter".toList
  mergeCells : ∀ t ∈ o.mergeCells, treeOk t = true ∧ treeTag t = "mergeCells".toList
  conditional : ∀ t ∈ o.conditionalFormats, treeOk t = true ∧ treeTag t = "conditionalFormatting".toList
  validations : ∀ t ∈ o.dataValidations, treeOk t = true ∧ treeTag t = "dataValidations".toList
  hyperlinks : ∀ t ∈ o.hyperlinks, treeOk t = true ∧ treeTag t = "hyperlinks".toList
  drawing : ∀ t ∈ o.drawing, treeOk t = true ∧ treeTag t = "drawing".toList
  legacyDrawing : ∀ t ∈ o.legacyDrawing, treeOk t = true ∧ treeTag t = "legacyDrawing".toList
  legacyDrawingHF : ∀ t ∈ o.legacyDrawingHF, treeOk t = true ∧ treeTag t = "legacyDrawingHF".toList
  picture : ∀ t ∈ o.picture, treeOk t = true ∧ treeTag t = "picture".toList
  tableParts : ∀ t ∈ o.tableParts, treeOk t = true ∧ treeTag t = "tableParts".toList
  extLst : ∀ t ∈ o.extLst, treeOk t = true ∧ treeTag t = "extLst".toList

/-- Names that are not among those of some attributes. -/
macro "not_named" : tactic =>
  `(tactic| (repeat' first
    | exact attrIf_names' (by decide)
    | refine attrIf_names (by decide) ?_
    | refine names_cons (by decide) ?_
    | exact (by simp)))

/-- Attributes that are written if a setting asks for them. -/
macro "attrs_ok" : tactic =>
  `(tactic| (repeat' first
    | exact attrsGood_nil
    | exact showNat_attrSafe _
    | exact attrIf_good' (by decide) (fun _ => by decide)
    | exact attrIf_good' (by decide) (fun _ => showNat_attrSafe _)
    | refine attrIf_good (by decide) (fun _ => by decide) ?_ ?_
    | refine attrIf_good (by decide) (fun _ => showNat_attrSafe _) ?_ ?_
    | refine attrsGood_cons (attrOk_of (by decide) (by decide)) ?_ ?_
    | refine attrsGood_cons (attrOk_of (by decide) (showNat_attrSafe _)) ?_ ?_
    | not_named))

theorem printOptions_ok (s : Setup) : treeOk s.printOptionsTree = true := by
  refine treeOk_empty (by decide) ?_
  attrs_ok

theorem pageSetup_ok (s : Setup) : treeOk s.pageSetupTree = true := by
  refine treeOk_empty (by decide) ?_
  have : attrSafe (if s.isPortrait then "portrait".toList else "landscape".toList) = true := by split <;> decide
  refine attrIf_good (by decide) (fun _ => showNat_attrSafe _) (by not_named) ?_
  refine attrIf_good (by decide) (fun _ => showNat_attrSafe _) (by not_named) ?_
  refine attrIf_good (by decide) (fun _ => showNat_attrSafe _) (by not_named) ?_
  refine attrIf_good (by decide) (fun _ => showNat_attrSafe _) (by not_named) ?_
  refine attrIf_good (by decide) (fun _ => by decide) (by not_named) ?_
  refine attrsGood_cons (attrOk_of (by decide) this) ?_ (by not_named)
  attrs_ok

theorem pageMargins_ok {s : Setup} (h : SetupSafe s) : treeOk s.pageMarginsTree = true := by
  obtain ⟨m1, m2, m3, m4, m5, m6⟩ := h.margins
  refine treeOk_empty (by decide) ?_
  refine attrsGood_cons (attrOk_of (by decide) m1) ?_ (by not_named)
  refine attrsGood_cons (attrOk_of (by decide) m2) ?_ (by not_named)
  refine attrsGood_cons (attrOk_of (by decide) m3) ?_ (by not_named)
  refine attrsGood_cons (attrOk_of (by decide) m4) ?_ (by not_named)
  refine attrsGood_cons (attrOk_of (by decide) m5) ?_ (by not_named)
  exact attrsGood_one (by decide) m6

theorem headerFooter_ok {s : Setup} (h : SetupSafe s) : treeOk s.headerFooterTree = true := by
  unfold Setup.headerFooterTree
  dsimp only
  split
  · refine treeOk_empty (by decide) ?_
    attrs_ok
  · refine treeOk_node (by decide) (by attrs_ok) (ok_append (ok_ite (fun _ => ok_nil) fun _ => ok_single ?_)
      (ok_ite (fun _ => ok_nil) fun _ => ok_single ?_))
    · exact attrSafe_data (by decide) (expandHeader_safe h.header)
    · exact attrSafe_data (by decide) (expandHeader_safe h.footer)

theorem protection_ok (s : Setup) (b : Bool) : treeOk (s.protectionTree b) = true := by
  refine treeOk_empty (by decide) (passwordAttrs_good ?_ ?_)
  · cases b
    · attrs_ok
    · attrs_ok
  · cases b
    · show _ ∉ List.map Prod.fst (_ :: _)
      not_named
    · show _ ∉ List.map Prod.fst (_ ++ _)
      not_named

theorem protectedRanges_ok {s : Setup} (h : SetupSafe s) : treeOk s.protectedRangesTree = true := by
  refine treeOk_node (by decide) attrsGood_nil fun k hk => ?_
  obtain ⟨p, hp, rfl⟩ := List.mem_map.mp hk
  obtain ⟨h1, h2⟩ := h.ranges p hp
  refine treeOk_empty (by decide) (passwordAttrs_good ?_ (by not_named))
  exact attrsGood_cons (attrOk_of (by decide) h1) (attrsGood_one (by decide) h2) (by not_named)

theorem ignoredErrors_ok {s : Setup} (h : SetupSafe s) : treeOk s.ignoredErrorsTree = true := by
  refine treeOk_node (by decide) attrsGood_nil fun k hk => ?_
  obtain ⟨e, he, hk⟩ := List.mem_filterMap.mp hk
  cases el : s.ignoredErrors.lookup e with
  | none => rw [el] at hk; cases hk
  | some t =>
    rw [el] at hk
    cases hk
    have ht : attrSafe t = true := by
      have : ∀ m : List (IgnoreError × Str), m.lookup e = some t → (e, t) ∈ m := by
        intro m hm
        induction m with
        | nil => cases hm
        | cons q m ih =>
          obtain ⟨x, y⟩ := q
          rw [List.lookup_cons] at hm
          cases hx : e == x with
          | true =>
            rw [hx] at hm
            cases hm
            rw [beq_iff_eq.mp hx]
            exact List.mem_cons_self
          | false =>
            rw [hx] at hm
            exact List.mem_cons_of_mem _ (ih hm)
      exact h.ignored _ (this _ el)
    cases e <;> exact treeOk_empty (by decide)
      (attrsGood_cons (attrOk_of (by decide) ht) (attrsGood_one (by decide) (by decide)) (by not_named))

theorem breaks_ok {tag max : Str} (ht : isName tag = true) (hm : attrSafe max = true) (l : List Nat) :
    treeOk (breaksTree tag max l) = true := by
  refine treeOk_node ht (attrsGood_cons (attrOk_of (by decide) (showNat_attrSafe _)) (attrsGood_one (by decide) (showNat_attrSafe _))
    (by not_named)) fun k hk => ?_
  obtain ⟨n, hn, rfl⟩ := List.mem_map.mp hk
  exact treeOk_empty (by decide) (attrsGood_cons (attrOk_of (by decide) (showNat_attrSafe _)) (attrsGood_cons (attrOk_of (by decide) hm)
    (attrsGood_one (by decide) (by decide)) (by not_named)) (by not_named))

theorem selection_ok {p a r : Str} (hp : attrSafe p = true) (ha : attrSafe a = true) (hr : attrSafe r = true) :
    treeOk (selectionTree p a r) = true := by
  refine treeOk_empty (by decide) (attrIf_good (by decide) (fun _ => hp) (by not_named)
    (attrIf_good (by decide) (fun _ => ha) (by not_named) (attrIf_good' (by decide) fun _ => hr)))

theorem paneTopLeft_safe (s : Setup) : attrSafe s.paneTopLeft = true := by
  unfold Setup.paneTopLeft
  split <;> exact cell_attrSafe _ _

theorem pane_ok (s : Setup) {a : Str} (ha : attrSafe a = true) : treeOk (s.paneTree a) = true := by
  refine treeOk_empty (by decide) (attrIf_good (by decide) (fun _ => showNat_attrSafe _) (by not_named)
    (attrIf_good (by decide) (fun _ => showNat_attrSafe _) (by not_named)
    (attrsGood_cons (attrOk_of (by decide) (paneTopLeft_safe s)) (attrsGood_cons (attrOk_of (by decide) ha)
    (attrsGood_one (by decide) (by decide)) (by not_named)) (by not_named))))

theorem paneTrees_ok (s : Setup) : ∀ k ∈ s.paneTrees, treeOk k = true := by
  unfold Setup.paneTrees
  repeat' split
  · exact ok_nil
  · exact ok_cons (pane_ok s (by decide)) (ok_cons (selection_ok (by decide) (cell_attrSafe _ _) (cell_attrSafe _ _))
      (ok_cons (selection_ok (by decide) (cell_attrSafe _ _) (cell_attrSafe _ _)) (ok_single (selection_ok (by decide) rfl rfl))))
  · exact ok_cons (pane_ok s (by decide)) (ok_single (selection_ok (by decide) rfl rfl))
  · exact ok_cons (pane_ok s (by decide)) (ok_single (selection_ok (by decide) rfl rfl))

theorem sheetViews_ok {s : Setup} (h : SetupSafe s) (b c : Bool) : treeOk (s.sheetViewsTree b c) = true := by
  unfold Setup.sheetViewsTree
  dsimp only
  refine treeOk_node (by decide) attrsGood_nil (ok_single ?_)
  have hm : attrSafe (if s.pageView = .pageLayout then "pageLayout".toList else "pageBreakPreview".toList) = true := by
    split <;> decide
  have ha : attrsGood (attrIf (!s.screenGridlines) "showGridLines".toList "0".toList ++
    (attrIf s.rightToLeft "rightToLeft".toList "1".toList ++
    (attrIf b "tabSelected".toList "1".toList ++
    (attrIf (s.pageView ≠ .normal) "view".toList
      (if s.pageView = .pageLayout then "pageLayout".toList else "pageBreakPreview".toList) ++
    (attrIf (!s.topLeftCell.isEmpty) "topLeftCell".toList s.topLeftCell ++
    (attrIf (s.zoom ≠ 100) "zoomScale".toList (showNat s.zoom) ++
    (attrIf (s.zoom ≠ 100 && s.pageView = .pageLayout) "zoomScalePageLayoutView".toList (showNat s.zoom) ++
    (attrIf (s.zoom ≠ 100 && s.pageView = .pageBreaks) "zoomScaleSheetLayoutView".toList (showNat s.zoom) ++
    (attrIf (s.zoom ≠ 100 && s.pageView = .normal && !c) "zoomScaleNormal".toList (showNat s.zoom) ++
    [("workbookViewId".toList, "0".toList)]))))))))) := by
    refine attrIf_good (by decide) (fun _ => by decide) (by not_named) ?_
    refine attrIf_good (by decide) (fun _ => by decide) (by not_named) ?_
    refine attrIf_good (by decide) (fun _ => by decide) (by not_named) ?_
    refine attrIf_good (by decide) (fun _ => hm) (by not_named) ?_
    refine attrIf_good (by decide) (fun _ => h.topLeft) (by not_named) ?_
    refine attrIf_good (by decide) (fun _ => showNat_attrSafe _) (by not_named) ?_
    refine attrIf_good (by decide) (fun _ => showNat_attrSafe _) (by not_named) ?_
    refine attrIf_good (by decide) (fun _ => showNat_attrSafe _) (by not_named) ?_
    refine attrIf_good (by decide) (fun _ => showNat_attrSafe _) (by not_named) ?_
    exact attrsGood_one (by decide) (by decide)
  split
  · exact treeOk_empty (by decide) ha
  · refine treeOk_node (by decide) ha (ok_append (paneTrees_ok s) ?_)
    unfold Setup.selectionTrees
    split
    · exact ok_nil
    · exact ok_single (selection_ok rfl h.selection.1 h.selection.2)

theorem sheetPr_ok (s : Setup) {o : SheetRest} (ho : RestOk o) (c : Bool) :
    ∀ k ∈ s.sheetPrTrees o c, treeOk k = true ∧ treeTag k = "sheetPr".toList := by
  have ha : attrsGood ((match o.codeName with | some n => [("codeName".toList, n)] | none => []) ++
      attrIf o.hasFilter "filterMode".toList "1".toList) := by
    cases e : o.codeName with
    | none => attrs_ok
    | some n => exact attrsGood_cons (attrOk_of (by decide) (ho.codeName n e)) (by attrs_ok) (by not_named)
  unfold Setup.sheetPrTrees
  dsimp only
  split
  · intro k hk; cases hk
  · split
    · intro k hk
      rw [List.mem_singleton] at hk
      subst hk
      refine ⟨treeOk_node (by decide) ha (ok_append (ok_ite (fun _ => ok_single ?_) fun _ => ok_nil)
        (ok_append (ok_ite (fun _ => ok_single ?_) fun _ => ok_nil) (ok_ite (fun _ => ok_single ?_) fun _ => ok_nil))), rfl⟩
      · exact treeOk_empty (by decide) (attrsGood_one (by decide) (by decide))
      · exact treeOk_empty (by decide) (color_good _)
      · exact treeOk_empty (by decide) (by attrs_ok)
    · intro k hk
      rw [List.mem_singleton] at hk
      subst hk
      exact ⟨treeOk_empty (by decide) ha, rfl⟩

/-! ### Sections -/

/-- Sections whose elements can be written and have the tag of the section. -/
def SecsOk (secs : List (Str × List Tree)) : Prop := ∀ p ∈ secs, ∀ t ∈ p.2, treeOk t = true ∧ treeTag t = p.1

theorem secs_child {secs : List (Str × List Tree)} (h : SecsOk secs) (hn : (secs.map Prod.fst).Nodup) (t : Text) :
    child t (toNodes (secs.flatMap (·.2))) = ((secs.lookup t).bind List.head?).map treeParts := by
  induction secs with
  | nil => rfl
  | cons p secs ih =>
    obtain ⟨n, ts⟩ := p
    rw [List.map_cons, List.nodup_cons] at hn
    have hs : SecsOk secs := fun p hp => h p (List.mem_cons_of_mem _ hp)
    have ht := h (n, ts) List.mem_cons_self
    rw [List.flatMap_cons, toNodes_append, child_append, ih hs hn.2]
    dsimp only at ht ⊢
    by_cases e : t = n
    · subst e
      rw [assoc_eq, assoc_none hn.1, child_trees]
      cases ts with
      | nil => rfl
      | cons x r => simp [(ht x List.mem_cons_self).2]
    · rw [assoc_ne e, child_trees, List.find?_eq_none.mpr]
      · rfl
      · intro x hx
        simp [(ht x hx).2]
        exact fun h => e h.symm

theorem opt_ok {o : Option Tree} {t : Str} (h : ∀ x ∈ o, treeOk x = true ∧ treeTag x = t) :
    ∀ x ∈ o.toList, treeOk x = true ∧ treeTag x = t := by
  cases o with
  | none => intro x hx; cases hx
  | some y =>
    intro x hx
    rw [Option.toList_some, List.mem_singleton] at hx
    subst hx
    exact h x rfl

theorem if_ok {b : Prop} [Decidable b] {x : Tree} {t : Str} (h1 : treeOk x = true) (h2 : treeTag x = t) :
    ∀ y ∈ (if b then [x] else []), treeOk y = true ∧ treeTag y = t := by
  intro y hy
  split at hy
  · rw [List.mem_singleton] at hy; subst hy; exact ⟨h1, h2⟩
  · cases hy

theorem if_ok' {b : Prop} [Decidable b] {x : Tree} {t : Str} (h1 : treeOk x = true) (h2 : treeTag x = t) :
    ∀ y ∈ (if b then [] else [x]), treeOk y = true ∧ treeTag y = t := by
  intro y hy
  split at hy
  · cases hy
  · rw [List.mem_singleton] at hy; subst hy; exact ⟨h1, h2⟩

theorem one_ok {x : Tree} {t : Str} (h1 : treeOk x = true) (h2 : treeTag x = t) : ∀ y ∈ [x], treeOk y = true ∧ treeTag y = t := by
  intro y hy
  rw [List.mem_singleton] at hy; subst hy; exact ⟨h1, h2⟩

theorem headerFooter_tag (s : Setup) : treeTag s.headerFooterTree = "headerFooter".toList := by
  unfold Setup.headerFooterTree; dsimp only; split <;> rfl

theorem secsOk_cons {n : Str} {ts : List Tree} {secs : List (Str × List Tree)} (h : ∀ t ∈ ts, treeOk t = true ∧ treeTag t = n)
    (hs : SecsOk secs) : SecsOk ((n, ts) :: secs) := by
  intro p hp
  rcases List.mem_cons.mp hp with rfl | hp
  · exact h
  · exact hs p hp

theorem worksheet_secs {s : Setup} {o : SheetRest} (h : SetupSafe s) (ho : RestOk o) : SecsOk (worksheetSections s o) := by
  unfold worksheetSections
  refine secsOk_cons (sheetPr_ok s ho false) ?_
  refine secsOk_cons (one_ok (treeOk_empty (by decide) (attrsGood_one (by decide) ho.dimension)) rfl) ?_
  refine secsOk_cons (one_ok (sheetViews_ok h _ _) rfl) ?_
  refine secsOk_cons (one_ok (treeOk_empty (by decide) ho.format) rfl) ?_
  refine secsOk_cons (opt_ok ho.cols) ?_
  refine secsOk_cons (one_ok ho.sheetData.1 ho.sheetData.2) ?_
  refine secsOk_cons (if_ok (protection_ok s _) rfl) ?_
  refine secsOk_cons (if_ok' (protectedRanges_ok h) rfl) ?_
  refine secsOk_cons (opt_ok ho.autoFilter) ?_
  refine secsOk_cons (opt_ok ho.mergeCells) ?_
  refine secsOk_cons ho.conditional ?_
  refine secsOk_cons (opt_ok ho.validations) ?_
  refine secsOk_cons (opt_ok ho.hyperlinks) ?_
  refine secsOk_cons (if_ok (printOptions_ok s) rfl) ?_
  refine secsOk_cons (one_ok (pageMargins_ok h) rfl) ?_
  refine secsOk_cons (if_ok (pageSetup_ok s) rfl) ?_
  refine secsOk_cons (if_ok (headerFooter_ok h) (headerFooter_tag s)) ?_
  refine secsOk_cons (if_ok' (breaks_ok (by decide) (by decide) _) rfl) ?_
  refine secsOk_cons (if_ok' (breaks_ok (by decide) (by decide) _) rfl) ?_
  refine secsOk_cons (if_ok' (ignoredErrors_ok h) rfl) ?_
  refine secsOk_cons (opt_ok ho.drawing) ?_
  refine secsOk_cons (opt_ok ho.legacyDrawing) ?_
  refine secsOk_cons (opt_ok ho.legacyDrawingHF) ?_
  refine secsOk_cons (opt_ok ho.picture) ?_
  refine secsOk_cons (opt_ok ho.tableParts) ?_
  refine secsOk_cons (opt_ok ho.extLst) ?_
  intro p hp; cases hp

theorem chartsheet_secs {s : Setup} {o : SheetRest} (h : SetupSafe s) (ho : RestOk o) : SecsOk (chartsheetSections s o) := by
  unfold chartsheetSections
  refine secsOk_cons (sheetPr_ok s ho true) ?_
  refine secsOk_cons (one_ok (sheetViews_ok h _ _) rfl) ?_
  refine secsOk_cons (if_ok (protection_ok s _) rfl) ?_
  refine secsOk_cons (if_ok' (protectedRanges_ok h) rfl) ?_
  refine secsOk_cons (if_ok (printOptions_ok s) rfl) ?_
  refine secsOk_cons (one_ok (pageMargins_ok h) rfl) ?_
  refine secsOk_cons (if_ok (pageSetup_ok s) rfl) ?_
  refine secsOk_cons (if_ok (headerFooter_ok h) (headerFooter_tag s)) ?_
  refine secsOk_cons (opt_ok ho.drawing) ?_
  refine secsOk_cons (opt_ok ho.legacyDrawingHF) ?_
  intro p hp; cases hp

theorem worksheetAttrs_good (b : Bool) : attrsGood (worksheetAttrs b) := by
  cases b <;> exact ⟨by decide, by decide⟩

theorem secs_ok {secs : List (Str × List Tree)} (h : SecsOk secs) : ∀ k ∈ secs.flatMap (·.2), treeOk k = true := by
  intro k hk
  obtain ⟨p, hp, hk⟩ := List.mem_flatMap.mp hk
  exact (h p hp k hk).1

theorem worksheet_ok {s : Setup} {o : SheetRest} (h : SetupSafe s) (ho : RestOk o) : treeOk (worksheetTree s o) = true :=
  treeOk_node (by decide) (worksheetAttrs_good _) (secs_ok (worksheet_secs h ho))

theorem chartsheet_ok {s : Setup} {o : SheetRest} (h : SetupSafe s) (ho : RestOk o) : treeOk (chartsheetTree s o) = true :=
  treeOk_node (by decide) (worksheetAttrs_good _) (secs_ok (chartsheet_secs h ho))

end Verif
