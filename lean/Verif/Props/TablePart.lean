import Verif.Model.TablePart
import Verif.Spec.TablePart
import Verif.Lemmas.StylePart
import Verif.Lemmas.StyleOk
import Verif.Props.MergeRange
/-!
C50: the table parts of a workbook.
-/
namespace Verif
open Spec
variable {Fmt : Type}

/-! ### One table part -/

theorem totalFn_text (f : TotalFn) (h : f ≠ .none) : totalFunctionName f = some f.text := by
  cases f <;> first | exact absurd rfl h | rfl

theorem style_text (s : TableStyle) (h : s ≠ .none) : styleName s = some s.text := by
  cases s <;> first | exact absurd rfl h | rfl

theorem tableColumnTree_tag (dxf : Nat → Nat) (i : Nat) (c : TableCol Fmt) :
    treeTag (tableColumnTree dxf i c) = "tableColumn".toList := by
  unfold tableColumnTree
  split <;> rfl

theorem tableColumnTree_parts (dxf : Nat → Nat) (i : Nat) (c : TableCol Fmt) :
    treeParts (tableColumnTree dxf i c) = (tableColumnAttrs dxf i c, toNodes (tableColumnKids c)) := by
  unfold tableColumnTree
  split
  · rename_i h
    rw [List.isEmpty_iff.mp h]; rfl
  · rfl

theorem readFormulaChild_kids (c : TableCol Fmt) (h : colSafe c = true) :
    readFormulaChild "calculatedColumnFormula".toList (toNodes (tableColumnKids c)) =
      some (c.formula.map (·.text)) ∧
    readFormulaChild "totalsRowFormula".toList (toNodes (tableColumnKids c)) =
      some (match c.totalFunction with | .custom f => some f.text | _ => none) := by
  unfold colSafe at h
  simp only [Bool.and_eq_true] at h
  obtain ⟨⟨_, hf⟩, ht⟩ := h
  have key : ∀ s : Str, plain s = true →
      (textOnly (if s = [] then [] else [Node.text (excelControlEscape s)])).map
        (fun s => some (unescapeX s)) = some (some s) := by
    intro s hs
    rw [textOnly_data, Option.map_some, unescapeX_plain hs]
  generalize hk : "calculatedColumnFormula".toList = k1 at *
  generalize hk2 : "totalsRowFormula".toList = k2 at *
  have hne : k1 ≠ k2 := by subst hk; subst hk2; decide
  unfold readFormulaChild tableColumnKids
  rw [child_trees, child_trees]
  cases hcf : c.formula with
  | none =>
    cases htf : c.totalFunction <;>
      simp only [columnFormulaTrees, totalFormulaTrees, List.nil_append, List.find?_nil, List.find?_cons,
        treeTag, hk2, hne.symm, decide_false, decide_true, Option.map_none, Option.map_some, treeParts,
        and_self, true_and]
    rename_i f
    rw [htf] at ht
    exact key _ ht
  | some f =>
    rw [hcf] at hf
    have hf' : plain f.text = true := by simpa using hf
    cases htf : c.totalFunction <;>
      simp only [columnFormulaTrees, totalFormulaTrees, List.append_nil, List.cons_append, List.nil_append,
        List.find?_nil, List.find?_cons, treeTag, hk, hk2, hne, hne.symm, decide_false, decide_true,
        Option.map_none, Option.map_some, treeParts, and_true] <;> try exact key _ hf'
    rename_i g
    rw [htf] at ht
    exact ⟨key _ hf', key _ ht⟩

theorem look_ne {n k : Str} (h : k ≠ n) (v : Str) (r : Attrs) : ((n, v) :: r).lookup k = r.lookup k := by
  have : (k == n) = false := by simpa using h
  simp only [List.lookup_cons, this]

theorem look_eq (n v : Str) (r : Attrs) : ((n, v) :: r).lookup n = some v := by
  simp only [List.lookup_cons, beq_self_eq_true]

theorem readTableCol_tree (dxf : Nat → Nat) (i : Nat) (c : TableCol Fmt) (h : colSafe c = true) :
    readTableCol (treeParts (tableColumnTree dxf i c)) = some (colMeant i c (dxf i)) := by
  rw [tableColumnTree_parts]
  unfold readTableCol
  dsimp only
  rw [(readFormulaChild_kids c h).1, (readFormulaChild_kids c h).2]
  have e1 : attrNat "id".toList (tableColumnAttrs dxf i c) = some (i + 1) := by
    unfold attrNat tableColumnAttrs
    rw [List.cons_append, List.cons_append, look_eq]
    exact readNat_showNat _
  have e2 : (tableColumnAttrs dxf i c).lookup "name".toList = some c.name := by
    unfold tableColumnAttrs
    rw [List.cons_append, List.cons_append, List.cons_append, List.cons_append, look_ne (by decide), look_eq]
  have e3 : (tableColumnAttrs dxf i c).lookup "totalsRowLabel".toList =
      if c.totalLabel = [] then none else some c.totalLabel := by
    unfold tableColumnAttrs
    rw [List.cons_append, List.cons_append, List.cons_append, List.cons_append, look_ne (by decide),
      look_ne (by decide), List.nil_append]
    by_cases hl : c.totalLabel = []
    · by_cases hf : c.totalFunction = .none <;> by_cases hc : c.format.isSome = true
      · rw [if_neg (by simpa using hl), if_neg (by simpa using hf), if_pos hc, if_pos hl, List.nil_append,
          look_ne (by decide)]; rfl
      · rw [if_neg (by simpa using hl), if_neg (by simpa using hf), if_neg hc, if_pos hl]; rfl
      · rw [if_neg (by simpa using hl), if_pos hf, if_pos hc, if_pos hl, List.cons_append, List.nil_append,
          look_ne (by decide), look_ne (by decide)]; rfl
      · rw [if_neg (by simpa using hl), if_pos hf, if_neg hc, if_pos hl, List.append_nil,
          look_ne (by decide)]; rfl
    · rw [if_pos hl, if_neg hl, List.cons_append, look_eq]
  have e4 : (tableColumnAttrs dxf i c).lookup "totalsRowFunction".toList =
      if c.totalLabel = [] then totalFunctionName c.totalFunction else none := by
    unfold tableColumnAttrs
    rw [List.cons_append, List.cons_append, List.cons_append, List.cons_append, look_ne (by decide),
      look_ne (by decide), List.nil_append]
    by_cases hl : c.totalLabel = []
    · by_cases hf : c.totalFunction = .none
      · rw [if_neg (by simpa using hl), if_neg (by simpa using hf), if_pos hl, List.nil_append, hf]
        split
        · rw [look_ne (by decide)]; rfl
        · rfl
      · rw [if_neg (by simpa using hl), if_pos hf, if_pos hl, List.cons_append, look_eq, totalFn_text _ hf]
    · rw [if_pos hl, if_neg hl, List.cons_append, look_ne (by decide), List.nil_append]
      split
      · rw [look_ne (by decide)]; rfl
      · rfl
  have e5 : attrNat "dataDxfId".toList (tableColumnAttrs dxf i c) =
      if c.format.isSome then some (dxf i) else none := by
    unfold attrNat tableColumnAttrs
    have tail : ∀ n v : Str, "dataDxfId".toList ≠ n →
        (((n, v) :: (if c.format.isSome then [("dataDxfId".toList, showNat (dxf i))] else []) : Attrs).lookup
          "dataDxfId".toList).bind readNat = if c.format.isSome then some (dxf i) else none := by
      intro n v hn
      rw [look_ne hn]
      by_cases hc : c.format.isSome = true
      · rw [if_pos hc, if_pos hc, look_eq]; exact readNat_showNat _
      · rw [if_neg hc, if_neg hc]; rfl
    rw [List.cons_append, List.cons_append, List.cons_append, List.cons_append, look_ne (by decide)]
    by_cases hl : c.totalLabel = []
    · by_cases hf : c.totalFunction = .none
      · rw [if_neg (by simpa using hl), if_neg (by simpa using hf)]
        exact tail _ _ (by decide)
      · rw [if_neg (by simpa using hl), if_pos hf, look_ne (by decide)]
        exact tail _ _ (by decide)
    · rw [if_pos hl, look_ne (by decide)]
      exact tail _ _ (by decide)
  rw [e1, e2, e3, e4, e5]
  rfl

theorem tableColumnAttrs_good (dxf : Nat → Nat) (i : Nat) (c : TableCol Fmt) (h : colSafe c = true) :
    attrsGood (tableColumnAttrs dxf i c) := by
  unfold colSafe at h
  simp only [Bool.and_eq_true] at h
  obtain ⟨⟨⟨h1, h2⟩, _⟩, _⟩ := h
  have h3 : attrSafe c.totalFunction.text = true := by cases c.totalFunction <;> first | decide | exact (by decide : attrSafe "custom".toList = true)
  refine attrsGood_sub (ns := ["id".toList, "name".toList, "totalsRowLabel".toList, "totalsRowFunction".toList,
    "dataDxfId".toList]) ?_ ?_ (by decide)
  · intro a ha
    unfold tableColumnAttrs at ha
    simp only [List.mem_append, List.mem_cons, List.not_mem_nil, or_false] at ha
    rcases ha with (((rfl | rfl) | ha) | ha)
    · simp only [attrOk, showNat_attrSafe, Bool.and_true]; decide
    · simp only [attrOk, h1, Bool.and_true]; decide
    · split at ha
      · simp only [List.mem_singleton] at ha; subst ha
        simp only [attrOk, h2, Bool.and_true]; decide
      · split at ha
        · simp only [List.mem_singleton] at ha; subst ha
          simp only [attrOk, h3, Bool.and_true]; decide
        · simp at ha
    · split at ha
      · simp only [List.mem_singleton] at ha; subst ha
        simp only [attrOk, showNat_attrSafe, Bool.and_true]; decide
      · simp at ha
  · unfold tableColumnAttrs
    by_cases hl : c.totalLabel = [] <;> by_cases hf : c.totalFunction = .none <;>
      cases c.format <;> simp [hl, hf]


theorem dataTree_ok {t d : Str} (ht : isName t = true) (h : plain d = true) : treeOk (.data t d []) = true := by
  simp only [treeOk, ht, plain_not_nonchar h, List.all_nil, List.map_nil, Bool.and_true, Bool.true_and]
  decide

theorem tableColumnTree_ok (dxf : Nat → Nat) (i : Nat) (c : TableCol Fmt) (h : colSafe c = true) :
    treeOk (tableColumnTree dxf i c) = true := by
  have hg := tableColumnAttrs_good dxf i c h
  unfold colSafe at h
  simp only [Bool.and_eq_true] at h
  obtain ⟨⟨_, hf⟩, ht⟩ := h
  unfold tableColumnTree
  split
  · exact treeOk_empty (by decide) hg
  · refine treeOk_node (by decide) hg (ok_append ?_ ?_)
    · cases hcf : c.formula with
      | none => exact ok_nil
      | some f =>
        rw [hcf] at hf
        exact ok_single (dataTree_ok (by decide) (by simpa using hf))
    · cases htf : c.totalFunction <;> first | exact ok_nil | skip
      rename_i f
      rw [htf] at ht
      exact ok_single (dataTree_ok (by decide) ht)

/-- The tables with a number and a name. -/
def shownName (t : Table Fmt) : Str := if t.name = [] then "Table".toList ++ showNat t.index else t.name

/-- The attributes of the root of a table part. -/
def tableAttrs (t : Table Fmt) (d : Dims) : Attrs :=
  [("xmlns".toList, "http://schemas.openxmlformats.org/spreadsheetml/2006/main".toList),
      ("id".toList, showNat t.index), ("name".toList, shownName t), ("displayName".toList, shownName t),
      ("ref".toList, cellRange d.firstRow d.firstCol d.lastRow d.lastCol)] ++
      (if t.showHeaderRow then [] else [("headerRowCount".toList, "0".toList)]) ++
      (if t.showTotalRow then [("totalsRowCount".toList, "1".toList)] else [("totalsRowShown".toList, "0".toList)])

/-- The attributes of the style of a table. -/
def tableStyleAttrs (t : Table Fmt) : Attrs :=
  (if t.style ≠ .none then [("name".toList, t.style.text)] else []) ++
         [("showFirstColumn".toList, xmlBool t.showFirstColumn), ("showLastColumn".toList, xmlBool t.showLastColumn),
          ("showRowStripes".toList, xmlBool t.showBandedRows),
          ("showColumnStripes".toList, xmlBool t.showBandedColumns)]

/-- The last row of the autofilter. -/
def filterLast (t : Table Fmt) (d : Dims) : Nat := if t.showTotalRow then d.lastRow - 1 else d.lastRow

/-- The `autoFilter` element. -/
def tableFilterTrees (t : Table Fmt) (d : Dims) : List Tree :=
  if t.showAutofilter && t.showHeaderRow then
        [.empty "autoFilter".toList [("ref".toList, cellRange d.firstRow d.firstCol (filterLast t d) d.lastCol)]] else []

/-- The `tableColumn` elements. -/
def columnTrees (dxf : Nat → Nat) (t : Table Fmt) : List Tree :=
  ((List.range t.columns.length).zip t.columns).map fun p => tableColumnTree dxf p.1 p.2

theorem tableTree_eq (dxf : Nat → Nat) (t : Table Fmt) (d : Dims) : tableTree dxf t d =
    .node "table".toList (tableAttrs t d) (tableFilterTrees t d ++
      [.node "tableColumns".toList [("count".toList, showNat t.columns.length)] (columnTrees dxf t),
       .empty "tableStyleInfo".toList (tableStyleAttrs t)]) := rfl

theorem columnTrees_length (dxf : Nat → Nat) (t : Table Fmt) :
    (columnTrees dxf t).length = t.columns.length := by simp [columnTrees]

theorem mem_columnTrees {dxf : Nat → Nat} {t : Table Fmt} {x : Tree} (h : x ∈ columnTrees dxf t) :
    ∃ i c, c ∈ t.columns ∧ x = tableColumnTree dxf i c := by
  simp only [columnTrees, List.mem_map] at h
  obtain ⟨p, hp, rfl⟩ := h
  exact ⟨p.1, p.2, (List.of_mem_zip hp).2, rfl⟩

theorem mapM_readTableCol (dxf : Nat → Nat) (cs : List (TableCol Fmt)) (is : List Nat)
    (h : ∀ c ∈ cs, colSafe c = true) :
    (((is.zip cs).map fun p => tableColumnTree dxf p.1 p.2).map treeParts).mapM readTableCol =
      some (is.zipWith (fun i c => colMeant i c (dxf i)) cs) := by
  induction is generalizing cs with
  | nil => rfl
  | cons i is ih =>
    cases cs with
    | nil => rfl
    | cons c cs =>
      simp only [List.zip_cons_cons, List.map_cons, List.zipWith_cons_cons]
      rw [List.mapM_cons, readTableCol_tree dxf i c (h c List.mem_cons_self),
        ih cs fun x hx => h x (List.mem_cons_of_mem _ hx)]
      rfl

theorem tableFilter_tags (t : Table Fmt) (d : Dims) :
    (t.showAutofilter && t.showHeaderRow) = true ∧ tableFilterTrees t d =
      [.empty "autoFilter".toList [("ref".toList, cellRange d.firstRow d.firstCol (filterLast t d) d.lastCol)]] ∨
    ((t.showAutofilter && t.showHeaderRow) = false ∧ tableFilterTrees t d = []) := by
  unfold tableFilterTrees
  cases t.showAutofilter && t.showHeaderRow <;> simp

theorem xmlBool_one (b : Bool) : decide (xmlBool b = "1".toList) = b := by cases b <;> decide

theorem oneRow_cons_ne {n k : Text} (h : k ≠ n) (v : Text) (b : Bool) (r : NodeAttrs) :
    oneRow k b ((n, v) :: r) = oneRow k b r := by
  unfold oneRow; rw [look_ne h]

theorem oneRow_cons_eq (n v : Text) (b : Bool) (r : NodeAttrs) :
    oneRow n b ((n, v) :: r) = decide (v = "1".toList) := by
  unfold oneRow; rw [look_eq]

theorem find_node {k t : Text} (h : t ≠ k) (as : Attrs) (ks r : List Tree) :
    (Tree.node t as ks :: r).find? (fun x => decide (treeTag x = k)) = r.find? (fun x => decide (treeTag x = k)) := by
  rw [List.find?_cons, decide_eq_false (by exact h)]

theorem find_empty {k t : Text} (h : t ≠ k) (as : Attrs) (r : List Tree) :
    (Tree.empty t as :: r).find? (fun x => decide (treeTag x = k)) = r.find? (fun x => decide (treeTag x = k)) := by
  rw [List.find?_cons, decide_eq_false (by exact h)]

theorem find_eq {k : Text} {x : Tree} (r : List Tree) (h : treeTag x = k) :
    (x :: r).find? (fun x => decide (treeTag x = k)) = some x := by
  rw [List.find?_cons, decide_eq_true h]

theorem tableKids_filter (dxf : Nat → Nat) (t : Table Fmt) (d : Dims) :
    readTableFilter (toNodes (tableFilterTrees t d ++
      [.node "tableColumns".toList [("count".toList, showNat t.columns.length)] (columnTrees dxf t),
       .empty "tableStyleInfo".toList (tableStyleAttrs t)])) =
      some (if t.showAutofilter = true ∧ t.showHeaderRow = true then
        some ((d.firstRow, d.firstCol), (if t.showTotalRow then d.lastRow - 1 else d.lastRow, d.lastCol))
      else none) := by
  unfold readTableFilter
  rw [child_trees]
  rcases tableFilter_tags t d with ⟨hb, he⟩ | ⟨hb, he⟩
  · rw [he, if_pos (by simpa using hb), List.cons_append, find_eq _ (by rfl), Option.map_some]
    dsimp only [treeParts]
    rw [look_eq, Option.bind_some, C02_range_roundtrip, Option.map_some]
    rfl
  · rw [he, if_neg (by simpa using hb), List.nil_append, find_node (by decide), find_empty (by decide), List.find?_nil]
    rfl

theorem tableKids_columns (dxf : Nat → Nat) (t : Table Fmt) (d : Dims) :
    readItems "tableColumns".toList "tableColumn".toList (toNodes (tableFilterTrees t d ++
      [.node "tableColumns".toList [("count".toList, showNat t.columns.length)] (columnTrees dxf t),
       .empty "tableStyleInfo".toList (tableStyleAttrs t)])) = some ((columnTrees dxf t).map treeParts) := by
  refine readItems_node _ _ _ t.columns.length _ ?_ ?_ (columnTrees_length dxf t).symm
  · rcases tableFilter_tags t d with ⟨_, he⟩ | ⟨_, he⟩
    · rw [he, List.cons_append, find_empty (by decide), List.nil_append, find_eq _ (by rfl)]
    · rw [he, List.nil_append, find_eq _ (by rfl)]
  · intro x hx
    obtain ⟨i, c, _, rfl⟩ := mem_columnTrees hx
    exact tableColumnTree_tag _ _ _

theorem tableKids_style (dxf : Nat → Nat) (t : Table Fmt) (d : Dims) :
    child "tableStyleInfo".toList (toNodes (tableFilterTrees t d ++
      [.node "tableColumns".toList [("count".toList, showNat t.columns.length)] (columnTrees dxf t),
       .empty "tableStyleInfo".toList (tableStyleAttrs t)])) = some (tableStyleAttrs t, []) := by
  rw [child_trees]
  rcases tableFilter_tags t d with ⟨_, he⟩ | ⟨_, he⟩
  · rw [he, List.cons_append, find_empty (by decide), List.nil_append, find_node (by decide), find_eq _ (by rfl)]; rfl
  · rw [he, List.nil_append, find_node (by decide), find_eq _ (by rfl)]; rfl

theorem readTable_tree (dxf : Nat → Nat) (t : Table Fmt) (d : Dims) (h : tableSafe t = true) :
    readTable (tableTree dxf t d).toNode = some (tableMeant t.index t d dxf) := by
  unfold tableSafe at h
  simp only [Bool.and_eq_true, List.all_eq_true] at h
  rw [tableTree_eq]
  unfold readTable Tree.toNode
  dsimp only
  rw [if_neg (by simp)]
  have a1 : attrNat "id".toList (tableAttrs t d) = some t.index := by
    unfold attrNat tableAttrs
    rw [List.cons_append, List.cons_append, look_ne (by decide), List.cons_append, List.cons_append, look_eq]
    exact readNat_showNat _
  have a2 : (tableAttrs t d).lookup "name".toList = some (shownName t) := by
    unfold tableAttrs
    simp only [List.cons_append]
    rw [look_ne (by decide), look_ne (by decide), look_eq]
  have a3 : (tableAttrs t d).lookup "displayName".toList = some (shownName t) := by
    unfold tableAttrs
    simp only [List.cons_append]
    rw [look_ne (by decide), look_ne (by decide), look_ne (by decide), look_eq]
  have a4 : ((tableAttrs t d).lookup "ref".toList).bind readRange =
      some ((d.firstRow, d.firstCol), (d.lastRow, d.lastCol)) := by
    unfold tableAttrs
    simp only [List.cons_append]
    rw [look_ne (by decide), look_ne (by decide), look_ne (by decide), look_ne (by decide), look_eq]
    exact C02_range_roundtrip _ _ _ _
  have a5 : oneRow "headerRowCount".toList true (tableAttrs t d) = t.showHeaderRow := by
    unfold tableAttrs
    simp only [List.cons_append, List.nil_append]
    rw [oneRow_cons_ne (by decide), oneRow_cons_ne (by decide), oneRow_cons_ne (by decide),
      oneRow_cons_ne (by decide), oneRow_cons_ne (by decide)]
    cases t.showHeaderRow <;> cases t.showTotalRow <;> decide
  have a6 : oneRow "totalsRowCount".toList false (tableAttrs t d) = t.showTotalRow := by
    unfold tableAttrs
    simp only [List.cons_append, List.nil_append]
    rw [oneRow_cons_ne (by decide), oneRow_cons_ne (by decide), oneRow_cons_ne (by decide),
      oneRow_cons_ne (by decide), oneRow_cons_ne (by decide)]
    cases t.showHeaderRow <;> cases t.showTotalRow <;> decide
  have s1 : (tableStyleAttrs t).lookup "name".toList = styleName t.style := by
    unfold tableStyleAttrs
    by_cases hs : t.style = .none
    · rw [if_neg (by simpa using hs), hs, List.nil_append, look_ne (by decide), look_ne (by decide),
        look_ne (by decide), look_ne (by decide)]; rfl
    · rw [if_pos hs, List.cons_append, look_eq, style_text _ hs]
  have sf : ∀ k : Text, k ≠ "name".toList → oneRow k false (tableStyleAttrs t) = oneRow k false
      [("showFirstColumn".toList, xmlBool t.showFirstColumn), ("showLastColumn".toList, xmlBool t.showLastColumn),
          ("showRowStripes".toList, xmlBool t.showBandedRows),
          ("showColumnStripes".toList, xmlBool t.showBandedColumns)] := by
    intro k hk
    unfold tableStyleAttrs
    split
    · rw [List.cons_append, oneRow_cons_ne hk]; rfl
    · rfl
  rw [a1, a2, a3, a4, tableKids_filter, tableKids_columns, tableKids_style]
  dsimp only [Option.bind_some]
  unfold columnTrees
  rw [mapM_readTableCol dxf _ _ h.2]
  dsimp only
  rw [a5, a6, s1, sf _ (by decide), sf _ (by decide), sf _ (by decide), sf _ (by decide)]
  rw [oneRow_cons_eq, xmlBool_one, oneRow_cons_ne (by decide), oneRow_cons_eq, xmlBool_one,
    oneRow_cons_ne (by decide), oneRow_cons_ne (by decide), oneRow_cons_eq, xmlBool_one,
    oneRow_cons_ne (by decide), oneRow_cons_ne (by decide), oneRow_cons_ne (by decide), oneRow_cons_eq, xmlBool_one]
  rfl


theorem shownName_safe (t : Table Fmt) (h : attrSafe t.name = true) : attrSafe (shownName t) = true := by
  unfold shownName
  split
  · rw [show attrSafe ("Table".toList ++ showNat t.index) = (attrSafe "Table".toList && attrSafe (showNat t.index))
      from List.all_append, showNat_attrSafe]
    decide
  · exact h

theorem style_safe (s : TableStyle) : attrSafe s.text = true := by
  have key : ∀ (a : Str) (n : Nat), attrSafe a = true → attrSafe (a ++ showNat n) = true := by
    intro a n h
    rw [show attrSafe (a ++ showNat n) = (attrSafe a && attrSafe (showNat n)) from List.all_append, showNat_attrSafe,
      h]
    rfl
  cases s with
  | none => decide
  | light n => exact key _ _ (by decide)
  | medium n => exact key _ _ (by decide)
  | dark n => exact key _ _ (by decide)

theorem xmlBool_safe (b : Bool) : attrSafe (xmlBool b) = true := by cases b <;> decide

theorem attrOk_of {n v : Str} (hn : isName n = true) (hv : attrSafe v = true) : attrOk (n, v) = true := by
  simp only [attrOk, hn, hv, Bool.and_true]

theorem tableAttrs_good (t : Table Fmt) (d : Dims) (h : attrSafe t.name = true) : attrsGood (tableAttrs t d) := by
  refine attrsGood_sub (ns := ["xmlns".toList, "id".toList, "name".toList, "displayName".toList, "ref".toList,
    "headerRowCount".toList, "totalsRowCount".toList, "totalsRowShown".toList]) ?_ ?_ (by decide)
  · unfold tableAttrs
    refine attr_append (attr_append ?_ ?_) ?_
    · intro a ha
      simp only [List.mem_cons, List.not_mem_nil, or_false] at ha
      rcases ha with rfl | rfl | rfl | rfl | rfl
      · decide
      · exact attrOk_of (by decide) (showNat_attrSafe _)
      · exact attrOk_of (by decide) (shownName_safe t h)
      · exact attrOk_of (by decide) (shownName_safe t h)
      · exact attrOk_of (by decide) (cellRange_attrSafe _ _ _ _)
    · split
      · simp
      · intro a ha
        simp only [List.mem_singleton] at ha
        subst ha; decide
    · split <;>
      · intro a ha
        simp only [List.mem_singleton] at ha
        subst ha; decide
  · unfold tableAttrs
    cases t.showHeaderRow <;> cases t.showTotalRow <;> simp

theorem tableStyleAttrs_good (t : Table Fmt) : attrsGood (tableStyleAttrs t) := by
  refine attrsGood_sub (ns := ["name".toList, "showFirstColumn".toList, "showLastColumn".toList,
    "showRowStripes".toList, "showColumnStripes".toList]) ?_ ?_ (by decide)
  · unfold tableStyleAttrs
    refine attr_append ?_ ?_
    · split
      · intro a ha
        simp only [List.mem_singleton] at ha
        subst ha
        exact attrOk_of (by decide) (style_safe _)
      · simp
    · intro a ha
      simp only [List.mem_cons, List.not_mem_nil, or_false] at ha
      rcases ha with rfl | rfl | rfl | rfl <;> exact attrOk_of (by decide) (xmlBool_safe _)
  · unfold tableStyleAttrs
    by_cases h : t.style = .none <;> simp [h]

theorem tableTree_ok (dxf : Nat → Nat) (t : Table Fmt) (d : Dims) (h : tableSafe t = true) :
    treeOk (tableTree dxf t d) = true := by
  unfold tableSafe at h
  simp only [Bool.and_eq_true, List.all_eq_true] at h
  rw [tableTree_eq]
  refine treeOk_node (by decide) (tableAttrs_good t d h.1) (ok_append ?_ ?_)
  · rcases tableFilter_tags t d with ⟨_, he⟩ | ⟨_, he⟩
    · rw [he]
      exact ok_single (treeOk_empty (by decide) (attrsGood_one (by decide) (cellRange_attrSafe _ _ _ _)))
    · rw [he]; exact ok_nil
  · intro k hk
    simp only [List.mem_cons, List.not_mem_nil, or_false] at hk
    rcases hk with rfl | rfl
    · refine treeOk_node (by decide) (attrsGood_one (by decide) (showNat_attrSafe _)) ?_
      intro x hx
      obtain ⟨i, c, hc, rfl⟩ := mem_columnTrees hx
      exact tableColumnTree_ok _ _ _ (h.2 c hc)
    · exact treeOk_empty (by decide) (tableStyleAttrs_good t)

/-! ### The tables of a workbook -/

/-- All tables of a workbook in order, each with the format numbers of its worksheet. -/
def allTables (sheets : List (SaveSheet Fmt)) : List (List Nat × PTable Fmt) :=
  sheets.flatMap fun s => s.tables.map fun p => (s.globalDxf, p)

theorem prepareSheetTables_spec {g : List Nat} {id : Nat} {ps qs : List (PTable Fmt)}
    (h : prepareSheetTables g id ps = some qs) :
    qs.length = ps.length ∧ ∀ (k : Nat) (p : PTable Fmt), ps[k]? = some p → ∃ q, qs[k]? = some q ∧ p.prepare g (id + k) = some q := by
  induction ps generalizing id qs with
  | nil => simp only [prepareSheetTables, Option.some.injEq] at h; subst h; simp
  | cons p ps ih =>
    simp only [prepareSheetTables] at h
    cases hp : p.prepare g id with
    | none => rw [hp] at h; cases h
    | some q =>
      rw [hp] at h
      dsimp only at h
      cases hr : prepareSheetTables g (id + 1) ps with
      | none => rw [hr] at h; cases h
      | some qs' =>
        rw [hr] at h
        simp only [Option.map_some, Option.some.injEq] at h
        subst h
        obtain ⟨hl, hk⟩ := ih hr
        refine ⟨by simp [hl], ?_⟩
        intro k p' hk'
        cases k with
        | zero =>
          simp only [List.getElem?_cons_zero, Option.some.injEq] at hk'
          subst hk'
          exact ⟨q, by simp, hp⟩
        | succ k =>
          obtain ⟨q', h1, h2⟩ := hk k p' (by simpa using hk')
          exact ⟨q', by simpa using h1, by rw [show id + (k + 1) = id + 1 + k by omega]; exact h2⟩

theorem prepareAllTables_spec {id : Nat} {ss out : List (SaveSheet Fmt)} (h : prepareAllTables id ss = some out) :
    (out.flatMap (·.tables)).length = (allTables ss).length ∧
    ∀ (k : Nat) (g : List Nat) (p : PTable Fmt), (allTables ss)[k]? = some (g, p) →
      ∃ q, (out.flatMap (·.tables))[k]? = some q ∧ p.prepare g (id + k) = some q := by
  induction ss generalizing id out with
  | nil => simp only [prepareAllTables, Option.some.injEq] at h; subst h; simp [allTables]
  | cons s ss ih =>
    simp only [prepareAllTables] at h
    cases hp : prepareSheetTables s.globalDxf id s.tables with
    | none => rw [hp] at h; cases h
    | some ts =>
      rw [hp] at h
      dsimp only at h
      cases hr : prepareAllTables (id + ts.length) ss with
      | none => rw [hr] at h; cases h
      | some rest =>
        rw [hr] at h
        simp only [Option.map_some, Option.some.injEq] at h
        subst h
        obtain ⟨hl1, hk1⟩ := prepareSheetTables_spec hp
        obtain ⟨hl, hk⟩ := ih hr
        have e : allTables (s :: ss) = (s.tables.map fun p => (s.globalDxf, p)) ++ allTables ss := by
          simp [allTables]
        rw [e]
        simp only [List.flatMap_cons]
        refine ⟨by simp [hl, hl1], ?_⟩
        intro k g p hkp
        by_cases hlt : k < ts.length
        · rw [List.getElem?_append_left (by simpa [hl1] using hlt)] at hkp
          rw [List.getElem?_append_left hlt]
          simp only [List.getElem?_map, Option.map_eq_some_iff, Prod.mk.injEq] at hkp
          obtain ⟨p', h1, rfl, rfl⟩ := hkp
          exact hk1 k p' h1
        · rw [List.getElem?_append_right (by simpa [hl1] using hlt)] at hkp
          rw [List.getElem?_append_right (by omega)]
          simp only [List.length_map] at hkp
          rw [hl1]
          obtain ⟨q, h1, h2⟩ := hk _ g p hkp
          refine ⟨q, h1, ?_⟩
          rw [← h2]
          congr 1
          omega

theorem remapDxf_spec {g : List Nat} {cs : List (TableCol Fmt)} {dxf out : List Nat}
    (h : remapDxf g cs dxf = some out) (i : Nat) (c : TableCol Fmt) (hc : cs[i]? = some c)
    (hf : c.format.isSome = true) : g[dxf.getD i 0]? = some (out.getD i 0) := by
  induction cs generalizing dxf out i with
  | nil => simp at hc
  | cons a cs ih =>
    simp only [remapDxf] at h
    have hd : ∀ j, dxf.getD (j + 1) 0 = dxf.tail.getD j 0 := by intro j; cases dxf <;> simp
    cases i with
    | zero =>
      simp only [List.getElem?_cons_zero, Option.some.injEq] at hc
      subst hc
      rw [if_pos hf] at h
      have h0 : dxf.getD 0 0 = dxf.headD 0 := by cases dxf <;> simp
      rw [h0]
      cases hg : g[dxf.headD 0]? with
      | none => rw [hg] at h; cases h
      | some j =>
        rw [hg] at h
        simp only [Option.map_eq_some_iff] at h
        obtain ⟨r, _, rfl⟩ := h
        rfl
    | succ i =>
      have hc' : cs[i]? = some c := by simpa using hc
      rw [hd]
      split at h
      · cases hg : g[dxf.headD 0]? with
        | none => rw [hg] at h; cases h
        | some j =>
          rw [hg] at h
          simp only [Option.map_eq_some_iff] at h
          obtain ⟨r, hr, rfl⟩ := h
          rw [ih hr i hc']; simp
      · simp only [Option.map_eq_some_iff] at h
        obtain ⟨r, hr, rfl⟩ := h
        rw [ih hr i hc']; simp

theorem repeatedName_none (lower : Str → Str) (ns seen : List Str) :
    repeatedName lower seen ns = none ↔
      (∀ n ∈ ns, lower n ∉ seen) ∧ ns.Pairwise fun a b => lower a ≠ lower b := by
  induction ns generalizing seen with
  | nil => simp [repeatedName]
  | cons n ns ih =>
    simp only [repeatedName]
    split
    · rename_i h
      have : lower n ∈ seen := by simpa using h
      simp [this]
    · rename_i h
      have hn : lower n ∉ seen := by simpa using h
      rw [ih]
      simp only [List.mem_cons, List.pairwise_cons, forall_eq_or_imp, not_or]
      constructor
      · rintro ⟨h1, h2⟩
        exact ⟨⟨hn, fun a ha => (h1 a ha).2⟩, fun a ha => fun e => (h1 a ha).1 e.symm, h2⟩
      · rintro ⟨⟨_, h1⟩, h2, h3⟩
        exact ⟨fun a ha => ⟨fun e => h2 a ha e.symm, h1 a ha⟩, h3⟩

theorem columns_congr {cs : List (TableCol Fmt)} {f g : Nat → Nat}
    (h : ∀ i c, cs[i]? = some c → c.format.isSome = true → f i = g i) :
    (List.range cs.length).zipWith (fun i c => colMeant i c (f i)) cs =
      (List.range cs.length).zipWith (fun i c => colMeant i c (g i)) cs := by
  apply List.ext_getElem?
  intro i
  simp only [List.getElem?_zipWith]
  by_cases hi : i < cs.length
  · have hc : cs[i]? = some cs[i] := List.getElem?_eq_getElem hi
    rw [hc, List.getElem?_range hi]
    dsimp only
    congr 1
    unfold colMeant
    by_cases hf : cs[i].format.isSome = true
    · rw [h i _ hc hf]
    · simp [hf]
  · rw [show cs[i]? = none from List.getElem?_eq_none (by omega)]
    cases (List.range cs.length)[i]? <;> rfl

/-- **C50.** When the tables of a workbook are prepared without an error, their names differ (up to case),
and for every table, the `k+1`-th in the order of the worksheets, the part `xl/tables/table{k+1}.xml` is
well-formed and a reader sees that table: the number `k+1`, the name (given or `Table{k+1}`), the range, the
header and total rows, the filter, every column with its name, total and formulas, the style; and the format
of a column is the one its worksheet number stands for in the workbook. -/
theorem C50_table_parts (lower : Str → Str) (sheets out : List (SaveSheet Fmt))
    (h : prepareTables lower sheets = .ok out)
    (hs : ∀ s ∈ sheets, ∀ p ∈ s.tables, tableSafe p.table = true) :
    (tableParts out).length = (allTables sheets).length ∧
    ((List.range (allTables sheets).length).zip (allTables sheets)).Pairwise (fun a b =>
      lower (tableMeant (a.1 + 1) a.2.2.table a.2.2.range id).name ≠
        lower (tableMeant (b.1 + 1) b.2.2.table b.2.2.range id).name) ∧
    ∀ (k : Nat) (g : List Nat) (p : PTable Fmt), (allTables sheets)[k]? = some (g, p) →
      (∀ i c, p.table.columns[i]? = some c → c.format.isSome = true → p.dxf.getD i 0 < g.length) ∧
      ∃ part node, (tableParts out)[k]? =
          some ("xl/tables/table".toList ++ showNat (k + 1) ++ ".xml".toList, part) ∧
        parseDoc part = some node ∧
        readTable node = some (tableMeant (k + 1) p.table p.range fun i => g.getD (p.dxf.getD i 0) 0) := by
  unfold prepareTables at h
  cases ha : prepareAllTables 1 sheets with
  | none => rw [ha] at h; cases h
  | some o =>
    rw [ha] at h
    dsimp only at h
    cases hr : repeatedName lower [] ((o.flatMap (·.tables)).map (·.table.name)) with
    | some n => rw [hr] at h; cases h
    | none =>
      rw [hr] at h
      simp only [PrepRes.ok.injEq] at h
      subst h
      obtain ⟨hl, hk⟩ := prepareAllTables_spec ha
      refine ⟨by simp [tableParts, hl], ?_, ?_⟩
      · have hp := ((repeatedName_none _ _ _).mp hr).2
        rw [List.pairwise_iff_getElem] at hp ⊢
        intro i j hi hj hij
        simp only [List.length_zip, List.length_range, Nat.min_self] at hi hj
        have name : ∀ m (hm : m < (allTables sheets).length),
            ((o.flatMap (·.tables)).map (·.table.name))[m]'(by simpa [hl] using hm) =
              (tableMeant (m + 1) (allTables sheets)[m].2.table (allTables sheets)[m].2.range id).name := by
          intro m hm
          obtain ⟨q, hq, hpq⟩ := hk m _ _ (List.getElem?_eq_getElem hm)
          rw [List.getElem_map, (List.getElem?_eq_some_iff.mp hq).2]
          unfold PTable.prepare at hpq
          simp only [Option.map_eq_some_iff] at hpq
          obtain ⟨dx, _, rfl⟩ := hpq
          simp only [tableMeant, Nat.add_comm 1 m]
          rfl
        have := hp i j (by simpa [hl] using hi) (by simpa [hl] using hj) hij
        rw [name i hi, name j hj] at this
        simpa using this
      · intro k g p hkp
        obtain ⟨q, hq, hpq⟩ := hk k g p hkp
        unfold PTable.prepare at hpq
        simp only [Option.map_eq_some_iff] at hpq
        obtain ⟨dx, hdx, rfl⟩ := hpq
        have hg := fun i c (hc : p.table.columns[i]? = some c) hf => remapDxf_spec hdx i c hc hf
        refine ⟨fun i c hc hf => (List.getElem?_eq_some_iff.mp (hg i c hc hf)).1, ?_⟩
        have hsafe : tableSafe p.table = true := by
          have hm := List.mem_of_getElem? hkp
          simp only [allTables, List.mem_flatMap, List.mem_map, Prod.mk.injEq] at hm
          obtain ⟨s, hs', p', hp', _, rfl⟩ := hm
          exact hs s hs' p' hp'
        have hpos : 0 < 1 + k := by omega
        generalize hq' : ({ p with
          table := { p.table with index := 1 + k,
                                  name := if p.table.name = [] then "Table".toList ++ showNat (1 + k)
                                    else p.table.name }
          dxf := dx } : PTable Fmt) = q at hq
        have hqs : tableSafe q.table = true := by
          subst hq'
          unfold tableSafe at hsafe ⊢
          simp only [Bool.and_eq_true] at hsafe ⊢
          refine ⟨?_, hsafe.2⟩
          have := shownName_safe ({ p.table with index := 1 + k } : Table Fmt) hsafe.1
          exact this
        refine ⟨_, _, ?_, C07_part_roundtrip _ (tableTree_ok (fun i => q.dxf.getD i 0) q.table q.range hqs), ?_⟩
        · have hlt := (List.getElem?_eq_some_iff.mp hq).1
          unfold tableParts
          rw [List.getElem?_map, (List.getElem?_zip_eq_some (z := (k, q))).mpr ⟨List.getElem?_range hlt, hq⟩]
          rfl
        · rw [readTable_tree _ _ _ hqs]
          congr 1
          subst hq'
          have hcols := columns_congr (cs := p.table.columns) (f := fun i => dx.getD i 0)
            (g := fun i => g.getD (p.dxf.getD i 0) 0) (by
              intro i c hc hf
              have := hg i c hc hf
              rw [List.getD_eq_getElem?_getD (l := g), this]; rfl)
          unfold tableMeant
          dsimp only
          rw [hcols, Nat.add_comm 1 k]
          have hne : ∀ n, (if (if p.table.name = [] then "Table".toList ++ showNat n else p.table.name) = [] then
              "Table".toList ++ showNat n else
              if p.table.name = [] then "Table".toList ++ showNat n else p.table.name) =
              if p.table.name = [] then "Table".toList ++ showNat n else p.table.name := by
            intro n
            by_cases hn : p.table.name = []
            · rw [if_pos hn]; split <;> rfl
            · rw [if_neg hn, if_neg hn]
          rw [hne]


/-- The name a table gets. -/
theorem prepare_name {g : List Nat} {id : Nat} {p q : PTable Fmt} (h : p.prepare g id = some q) :
    q.table.name = (tableMeant id p.table p.range (fun i => i)).name := by
  unfold PTable.prepare at h
  simp only [Option.map_eq_some_iff] at h
  obtain ⟨_, _, rfl⟩ := h
  rfl

/-- Every format number of the tables is known to its worksheet. -/
def dxfKnown (sheets : List (SaveSheet Fmt)) : Prop :=
  ∀ x ∈ allTables sheets, ∀ (i : Nat) (c : TableCol Fmt), x.2.table.columns[i]? = some c →
    c.format.isSome = true → x.2.dxf.getD i 0 < x.1.length

theorem remapDxf_isSome {g : List Nat} {cs : List (TableCol Fmt)} {dxf : List Nat}
    (h : ∀ (i : Nat) (c : TableCol Fmt), cs[i]? = some c → c.format.isSome = true → dxf.getD i 0 < g.length) :
    ∃ out, remapDxf g cs dxf = some out := by
  induction cs generalizing dxf with
  | nil => exact ⟨_, rfl⟩
  | cons a cs ih =>
    have hd : ∀ j, dxf.getD (j + 1) 0 = dxf.tail.getD j 0 := by intro j; cases dxf <;> simp
    obtain ⟨out, ho⟩ := ih (dxf := dxf.tail) (fun i c hc hf => by
      rw [← hd]; exact h (i + 1) c (by simpa using hc) hf)
    simp only [remapDxf, ho]
    by_cases hf : a.format.isSome = true
    · have h0 : dxf.getD 0 0 = dxf.headD 0 := by cases dxf <;> simp
      have := h 0 a (by simp) hf
      rw [h0] at this
      rw [if_pos hf, List.getElem?_eq_getElem this]
      exact ⟨_, rfl⟩
    · rw [if_neg hf]; exact ⟨_, rfl⟩

theorem prepareSheetTables_isSome {g : List Nat} {ps : List (PTable Fmt)} (id : Nat)
    (h : ∀ p ∈ ps, ∀ (i : Nat) (c : TableCol Fmt), p.table.columns[i]? = some c → c.format.isSome = true →
      p.dxf.getD i 0 < g.length) : ∃ qs, prepareSheetTables g id ps = some qs := by
  induction ps generalizing id with
  | nil => exact ⟨_, rfl⟩
  | cons p ps ih =>
    obtain ⟨out, ho⟩ := remapDxf_isSome (h p List.mem_cons_self)
    obtain ⟨qs, hq⟩ := ih (id + 1) fun x hx => h x (List.mem_cons_of_mem _ hx)
    simp only [prepareSheetTables, PTable.prepare, ho, Option.map_some, hq]
    exact ⟨_, rfl⟩

theorem prepareAllTables_isSome {ss : List (SaveSheet Fmt)} (id : Nat) (h : dxfKnown ss) :
    ∃ out, prepareAllTables id ss = some out := by
  induction ss generalizing id with
  | nil => exact ⟨_, rfl⟩
  | cons s ss ih =>
    obtain ⟨ts, ht⟩ := prepareSheetTables_isSome (g := s.globalDxf) (ps := s.tables) id (fun p hp =>
      h (s.globalDxf, p) (by simp only [allTables, List.flatMap_cons, List.mem_append, List.mem_map]
                             exact Or.inl ⟨p, hp, rfl⟩))
    obtain ⟨out, ho⟩ := ih (id + ts.length) (fun x hx => h x (by
      simp only [allTables, List.flatMap_cons, List.mem_append] at hx ⊢; exact Or.inr hx))
    simp only [prepareAllTables, ht, ho]
    exact ⟨_, rfl⟩

/-- The names the tables of a workbook get, in order. -/
def meantNames (sheets : List (SaveSheet Fmt)) : List Str :=
  (List.range (allTables sheets).length).zipWith
    (fun k x => (tableMeant (k + 1) x.2.table x.2.range (fun i => i)).name) (allTables sheets)

/-- **C50.** Tables are never a reason for a save to fail but for a repeated name (up to case): with the
numbers of the formats known, the preparation succeeds exactly when the names differ. -/
theorem C50_names (lower : Str → Str) (sheets : List (SaveSheet Fmt)) (hd : dxfKnown sheets) :
    ((∃ out, prepareTables lower sheets = .ok out) ↔
      (meantNames sheets).Pairwise fun a b => lower a ≠ lower b) ∧
    ((∃ n out, prepareTables lower sheets = .nameReused n out) ↔
      ¬ (meantNames sheets).Pairwise fun a b => lower a ≠ lower b) := by
  obtain ⟨out, ho⟩ := prepareAllTables_isSome 1 hd
  obtain ⟨hl, hk⟩ := prepareAllTables_spec ho
  have hnames : (out.flatMap (·.tables)).map (·.table.name) = meantNames sheets := by
    apply List.ext_getElem?
    intro k
    unfold meantNames
    rw [List.getElem?_map, List.getElem?_zipWith]
    by_cases hlt : k < (allTables sheets).length
    · obtain ⟨q, hq, hpq⟩ := hk k _ _ (List.getElem?_eq_getElem hlt)
      rw [hq, List.getElem?_range hlt, List.getElem?_eq_getElem hlt]
      dsimp only [Option.map_some]
      rw [prepare_name hpq, Nat.add_comm 1 k]
      rfl
    · rw [List.getElem?_eq_none (by omega), List.getElem?_eq_none (l := allTables sheets) (by omega)]
      cases (List.range (allTables sheets).length)[k]? <;> rfl
  have hr := repeatedName_none lower (meantNames sheets) []
  unfold prepareTables
  rw [ho]
  dsimp only
  rw [hnames]
  cases hc : repeatedName lower [] (meantNames sheets) with
  | none =>
    have := (hr.mp hc).2
    simp [this]
  | some n =>
    have : ¬ (meantNames sheets).Pairwise fun a b => lower a ≠ lower b := by
      intro hp
      have := hr.mpr ⟨by simp, hp⟩
      rw [hc] at this; cases this
    simp [this]

/-! ### Where it goes wrong -/

/-- F83: two tables whose given names differ (one has none) are refused: the name that is made up for the
second is the one the user gave to the first. -/
theorem C50_default_name_counterexample :
    prepareTables (Fmt := Nat) (fun s => s.map Char.toLower)
      [{ tables := [{ table := { name := "TABLE2".toList }, range := ⟨0, 0, 1, 1⟩ },
                    { table := {}, range := ⟨3, 0, 4, 1⟩ }] }] =
    .nameReused "Table2".toList
      [{ tables := [{ table := { name := "TABLE2".toList, index := 1 }, range := ⟨0, 0, 1, 1⟩ },
                    { table := { name := "Table2".toList, index := 2 }, range := ⟨3, 0, 4, 1⟩ }] }] := by
  decide +kernel

/-- F82: a control character in the name of a column, which a cell can show, makes the table part unreadable:
it is not a well-formed XML document. -/
theorem C50_control_character_counterexample :
    parseDoc (writePart (tableTree (Fmt := Unit) (fun _ => 0)
      { index := 1, columns := [{ name := [Char.ofNat 1] }] } ⟨0, 0, 1, 0⟩)) = none := by
  decide +kernel

/-- F18: the number of the format of a column is changed in place by a save, so a second save of the same
workbook looks it up again: it selects another format (or none). -/
theorem C50_second_save_counterexample (t : Table Unit) (d : Dims) (name : Str) :
    let p : PTable Unit := { table := { t with name := name, columns := [{ name := "a".toList, format := some () }] }
                             range := d, dxf := [0] }
    ∃ q, p.prepare [1, 0] 1 = some q ∧ q.dxf = [1] ∧ ∃ q', q.prepare [1, 0] 1 = some q' ∧ q'.dxf = [0] := by
  refine ⟨_, rfl, rfl, _, rfl, rfl⟩

/-- F67: a made-up name stays with a table. When a table is added to an earlier worksheet after a save, the
next save is refused although no table has been given a name. -/
theorem C50_second_save_name_counterexample :
    prepareTables (Fmt := Nat) (fun s => s) [{ tables := [] }, { tables := [{ table := {}, range := ⟨0, 0, 1, 1⟩ }] }] =
      .ok [{ tables := [] },
           { tables := [{ table := { name := "Table1".toList, index := 1 }, range := ⟨0, 0, 1, 1⟩ }] }] ∧
    prepareTables (Fmt := Nat) (fun s => s)
      [{ tables := [{ table := {}, range := ⟨0, 0, 1, 1⟩ }] },
       { tables := [{ table := { name := "Table1".toList, index := 1 }, range := ⟨0, 0, 1, 1⟩ }] }] =
      .nameReused "Table1".toList
        [{ tables := [{ table := { name := "Table1".toList, index := 1 }, range := ⟨0, 0, 1, 1⟩ }] },
         { tables := [{ table := { name := "Table1".toList, index := 2 }, range := ⟨0, 0, 1, 1⟩ }] }] := by
  decide +kernel

/-- A workbook with two sheets and three tables, one with a format, a label, a function and a formula. -/
def sampleTables : List (SaveSheet Nat) :=
    [{ tables := [{ table := { name := "Sales".toList, showTotalRow := true, columns :=
                      [{ name := "A & B".toList, totalLabel := "<Total>".toList },
                       { name := "C".toList, totalFunction := .sum, format := some 7 },
                       { name := "D".toList, formula := some { text := "1<2".toList } }] }
                    range := ⟨2, 1, 7, 3⟩, dxf := [0, 1, 0] },
                  { table := { columns := [{ name := "x".toList }] }, range := ⟨9, 0, 10, 0⟩ }]
       globalDxf := [3, 4] },
     { tables := [{ table := { columns := [{ name := "y".toList }] }, range := ⟨9, 0, 10, 0⟩ }] }]

/-- It meets the hypotheses of `C50_table_parts` and `C50_names`. -/
example : (∃ out, prepareTables (fun s => s.map Char.toLower) sampleTables = .ok out) ∧
    ∀ s ∈ sampleTables, ∀ p ∈ s.tables, tableSafe p.table = true := by
  refine ⟨(C50_names _ _ ?_).1.mpr (by decide +kernel), by decide +kernel⟩
  intro x hx i c hc hf
  simp only [sampleTables, allTables, List.flatMap_cons, List.flatMap_nil, List.map_cons, List.map_nil,
    List.cons_append, List.nil_append, List.mem_cons, List.not_mem_nil, or_false] at hx
  rcases hx with rfl | rfl | rfl
  · rcases i with _ | _ | _ | i <;> simp at hc <;> subst hc <;> simp at hf ⊢
  · rcases i with _ | i <;> simp at hc; subst hc; simp at hf
  · rcases i with _ | i <;> simp at hc; subst hc; simp at hf

end Verif
