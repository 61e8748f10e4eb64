import Verif.Lemmas.RichString
import Verif.Props.Sparkline
/-!
The shared strings part and the cells, read back.
-/
set_option linter.unusedSimpArgs false
namespace Verif
open Spec

/-! ### Shared strings -/

/-- A string that can be an entry of the shared strings part. -/
def keyOk (k : Str) : Prop :=
  (xmlText k = true ∧ looksRich k = false) ∨ ∃ segs raw, getRichString segs = some (k, raw) ∧ segsOk segs = true

/-- The value a shared string stands for. -/
def KeyMeant (k : Str) (v : Value) : Prop :=
  (looksRich k = false → v = .text k) ∧
  ∀ segs raw, getRichString segs = some (k, raw) → segsOk segs = true → v = .runs (runsMeant segs)

theorem node_r_text (ks : List Tree) : writeCalls (Tree.node "r".toList [] ks).calls =
    "<r>".toList ++ writeCalls (callsList ks) ++ "</r>".toList := by
  simp [Tree.calls, writeCalls, Call.write, xmlStartTag, xmlEndTag, writeAttributes]

theorem runTree_start (first : Bool) (s : Format × Text) :
    ∃ m, writeCalls (runTree first s).calls = "<r>".toList ++ m ++ "</r>".toList :=
  ⟨_, node_r_text _⟩

theorem writeCalls_append (a b : List Call) : writeCalls (a ++ b) = writeCalls a ++ writeCalls b := by
  simp [writeCalls]

theorem callsList_append (a b : List Tree) : callsList (a ++ b) = callsList a ++ callsList b := by
  induction a with
  | nil => rfl
  | cons t ts ih => simp [callsList, ih]

theorem runTrees_start {first : Bool} {segs : List (Format × Text)} {ts : List Tree} (h : runTrees first segs = some ts)
    (hne : segs ≠ []) : ∃ m, writeCalls (callsList ts) = "<r>".toList ++ m ∧
      ∃ m', writeCalls (callsList ts) = m' ++ "</r>".toList := by
  induction segs generalizing first ts with
  | nil => exact absurd rfl hne
  | cons s ss ih =>
    rw [runTrees] at h
    split at h
    · cases h
    · cases e : runTrees false ss with
      | none => rw [e] at h; cases h
      | some ts' =>
        rw [e] at h; cases h
        obtain ⟨m, hm⟩ := runTree_start first s
        simp only [callsList, writeCalls_append, hm]
        refine ⟨m ++ "</r>".toList ++ writeCalls (callsList ts'), by simp, ?_⟩
        cases ss with
        | nil =>
          simp only [runTrees] at e; cases e
          exact ⟨"<r>".toList ++ m, by simp [callsList, writeCalls]⟩
        | cons a b =>
          obtain ⟨_, _, m', hm'⟩ := ih e (by simp)
          exact ⟨"<r>".toList ++ m ++ "</r>".toList ++ m', by rw [hm']; simp⟩

theorem rich_looks {segs : List (Format × Text)} {k raw : Str} (h : getRichString segs = some (k, raw)) :
    looksRich k = true := by
  unfold getRichString at h
  split at h
  · cases h
  · rename_i hne
    cases e : runTrees true segs with
    | none => rw [e] at h; cases h
    | some ts =>
      rw [e] at h
      simp only [Option.map_some, Option.some.injEq, Prod.mk.injEq] at h
      obtain ⟨m, h1, m', h2⟩ := runTrees_start e hne
      rw [← h.1]
      unfold looksRich
      rw [Bool.and_eq_true]
      constructor
      · rw [h1, List.isPrefixOf_iff_prefix]; exact ⟨m, rfl⟩
      · rw [h2, List.isSuffixOf_iff_suffix]; exact ⟨m', rfl⟩

theorem readSi_text (k : Str) :
    readSi (siTree k (k.head?.any isSstWhitespace || k.getLast?.any isSstWhitespace)).toNode = some (.text k) := by
  have h := readT_data k _ preserve_false
  simp only [siTree, Tree.toNode, toNodes, readSi, if_true, readString] at h ⊢
  rw [h]

/-- One shared string, written and read. -/
theorem sstString_spec (k : Str) (h : keyOk k) :
    ∃ t v, writeSstString k = writeCalls t.calls ∧ treeOk t = true ∧ readSi t.toNode = some v ∧ KeyMeant k v := by
  rcases h with ⟨h1, h2⟩ | ⟨segs, raw, h1, h2⟩
  · refine ⟨siTree k _, _, ?_, siTree_ok k _ h1, readSi_text k, fun _ => rfl, ?_⟩
    · unfold writeSstString
      have : (startsWith "<r>".toList k && endsWith "</r>".toList k) = false := h2
      rw [this]
      simp only [Bool.false_eq_true, if_false]
      exact xmlSiElement_eq k _
    · intro segs raw hs
      rw [rich_looks hs] at h2; cases h2
  · obtain ⟨ts, e, hok, hr⟩ := rich_spec h1 h2
    refine ⟨.node "si".toList [] ts, .runs (runsMeant segs), ?_, ?_, ?_, ?_, ?_⟩
    · unfold writeSstString
      have : (startsWith "<r>".toList k && endsWith "</r>".toList k) = true := rich_looks h1
      rw [this]
      simp only [if_true, xmlRichSiElement, Tree.calls, writeCalls, List.flatMap_cons, List.flatMap_append,
        List.flatMap_nil, List.append_nil, Call.write]
      rw [e]
      simp [xmlStartTag, xmlEndTag, writeAttributes, writeCalls]
    · simp only [treeOk, hok]; decide
    · simp only [Tree.toNode, readSi, if_true, hr]
    · intro h; rw [rich_looks h1] at h; cases h
    · intro segs' raw' hs' hok'
      obtain ⟨ts', e', hk', hr'⟩ := rich_spec hs' hok'
      have p1 := parseContent_trees ts hok
      have p2 := parseContent_trees ts' hk'
      rw [← e] at p1
      rw [← e'] at p2
      rw [p1] at p2
      injection p2 with p2
      rw [p2] at hr
      rw [hr'] at hr
      injection hr with hr
      exact hr.symm

/-- The values of the shared strings part are those of the strings. -/
def SharedOk (shared : List Value) (si : List Str) : Prop :=
  ∀ (i : Nat) (k : Str), si[i]? = some k → ∃ v, shared[i]? = some v ∧ KeyMeant k v

theorem sstStrings_spec (keys : List Str) (h : ∀ k ∈ keys, keyOk k) :
    ∃ ts shared, keys.flatMap writeSstString = writeCalls (callsList ts) ∧ treesOk ts = true ∧
      (toNodes ts).mapM readSi = some shared ∧ SharedOk shared keys := by
  induction keys with
  | nil => exact ⟨[], [], rfl, rfl, rfl, by intro i k hi; simp at hi⟩
  | cons k ks ih =>
    obtain ⟨t, v, h1, h2, h3, h4⟩ := sstString_spec k (h k List.mem_cons_self)
    obtain ⟨ts, sh, g1, g2, g3, g4⟩ := ih fun x hx => h x (List.mem_cons_of_mem _ hx)
    refine ⟨t :: ts, v :: sh, ?_, ?_, ?_, ?_⟩
    · rw [List.flatMap_cons, h1, g1]; simp [callsList, writeCalls]
    · simp only [treesOk, h2, g2, Bool.and_self]
    · simp only [toNodes, List.mapM_cons, h3, g3]; rfl
    · intro i x hi
      cases i with
      | zero => simp at hi; subst hi; exact ⟨v, rfl, h4⟩
      | succ i => exact g4 i x (by simpa using hi)

/-- The shared strings part reads back. -/
theorem sharedStrings_spec (t : SST) (keys : List Str) (h : ∀ k ∈ keys, keyOk k) :
    ∃ shared, (parseDoc (sharedStringsText t keys)).bind readShared = some shared ∧ SharedOk shared keys := by
  obtain ⟨ts, sh, h1, h2, h3, h4⟩ := sstStrings_spec keys h
  refine ⟨sh, ?_, h4⟩
  let root : Tree := .node "sst".toList
    [("xmlns".toList, "http://schemas.openxmlformats.org/spreadsheetml/2006/main".toList),
     ("count".toList, showNat t.count), ("uniqueCount".toList, showNat t.unique)] ts
  have hw : sharedStringsText t keys = writePart root := by
    unfold sharedStringsText writePart
    rw [h1]
    simp only [root, Tree.calls, writeCalls, List.flatMap_cons, List.flatMap_append, List.flatMap_nil, List.append_nil,
      Call.write, List.append_assoc]
  have hok : treeOk root = true := by
    have ha : attrsGood [("xmlns".toList, "http://schemas.openxmlformats.org/spreadsheetml/2006/main".toList),
        ("count".toList, showNat t.count), ("uniqueCount".toList, showNat t.unique)] :=
      attrsGood_cons (attrOk_of (by decide) (by decide +kernel))
        (attrsGood_cons (attrOk_of (by decide) (showNat_attrSafe _))
          (attrsGood_one (by decide) (showNat_attrSafe _)) (by simp)) (by simp)
    simp only [root, treeOk, h2, List.all_eq_true.mpr ha.1, decide_eq_true ha.2, Bool.and_true]
    decide
  rw [hw, C07_part_roundtrip root hok]
  simp only [root, Tree.toNode, Option.bind_some, readShared, if_true, h3]

/-! ### Cells -/

/-- What is written for a cell is nothing, for a blank cell without format, or one `c` element that reads back as
the cell. -/
structure CellWritten (shared : List Value) (row col xf : Nat) (content : Content) (text : Str) (ts : List Tree) : Prop where
  text : text = writeCalls (callsList ts)
  ok : treesOk ts = true
  read : (ts = [] ∧ content = .blank ∧ xf = 0) ∨
    ∃ t v, ts = [t] ∧ Meant content v ∧
      readCellElem shared t.toNode = some { row := row, col := col, style := xf, formula := v.formula, cm := v.cm,
                                            vm := none, value := v.value }

theorem cell_node {shared : List Value} {row col xf : Nat} {cm : Bool} {t : Option Str} {ks : List Tree}
    {content : Content} {text : Str} {v : View}
    (ht : ∀ s, t = some s → s.all refChar = true)
    (htext : text = cellOpen (row + 1) (columnNumberToName col) ++ styleText xf ++ afterStyle cm t none ++ ['>'] ++
        writeCalls (callsList ks) ++ "</c>".toList)
    (hks : treesOk ks = true) (hm : Meant content v) (hcm : v.cm = if cm then some 1 else none)
    (hf : readCellFormula (toNodes ks) = some v.formula)
    (hv : readValue shared (t.getD "n".toList) (toNodes ks) = some v.value) :
    ∃ ts, CellWritten shared row col xf content text ts := by
  refine ⟨[.node "c".toList (cAttrs row col xf cm t none) ks], ?_, ?_, Or.inr ⟨_, v, rfl, hm, ?_⟩⟩
  · rw [htext, ← c_node_text row col xf cm t none ks ht]
    simp [callsList]
  · have hg := cAttrs_good row col xf cm t none (fun s hs => ref_attrSafe (ht s hs))
    simp only [treesOk, treeOk, hks, List.all_eq_true.mpr hg.1, decide_eq_true hg.2, Bool.and_true]
    decide
  · rw [Tree.toNode, readCell_c shared row col xf cm t none _ _ _ hf hv, hcm]

theorem xmlText_data {t d : Str} (ht : isName t = true) (h : xmlText d = true) :
    treesOk [.data t d []] = true := by
  have : d.all (fun c => !isNonChar c) = true := h
  simp only [treesOk, treeOk, ht, this, List.all_nil, List.map_nil, Bool.and_true]; decide

theorem num_xmlText {s : Str} (h : s.all numChar = true) : xmlText s = true := by
  unfold xmlText
  rw [List.all_eq_true] at h ⊢
  intro c hc
  have h1 := h c hc
  have h' : ((((isDigit c = true ∨ c = '+') ∨ c = '-') ∨ c = '.') ∨ c = 'e') ∨ c = 'E' := by
    simpa [numChar, Bool.or_eq_true] using h1
  have : c.toNat < 200 := by
    rcases h' with ((((h' | rfl) | rfl) | rfl) | rfl) | rfl
    · simp only [isDigit, Bool.and_eq_true, decide_eq_true_eq] at h'
      have h1 : c.toNat ≤ 57 := h'.2
      omega
    all_goals decide
  simp only [isNonChar, Bool.not_eq_true', Bool.or_eq_false_iff, decide_eq_false_iff_not]
  omega

theorem v_no_formula (d : Str) : readCellFormula (toNodes [.data "v".toList d []]) = some none :=
  formula_none _ (by intro t ht; simp at ht; subst ht; simp [treeTag])

theorem numberCell_spec (shared : List Value) (row col xf : Nat) (n : Str) (h : isDecimal n = true) {content : Content}
    (hm : Meant content { value := some (.number n) }) :
    ∃ ts, CellWritten shared row col xf content (numberCellText (row + 1) (columnNumberToName col) n xf) ts := by
  have hn := decimal_num h
  refine cell_node (cm := false) (t := none) (ks := [.data "v".toList n []]) (by simp) ?_
    (xmlText_data (by decide) (num_xmlText hn)) hm rfl (v_no_formula n) ?_
  · rw [v_text, escapeXmlData_num hn]
    simp [numberCellText, afterStyle, mayText]
  · unfold readValue
    rw [childText_data, excel_num hn]
    rw [if_neg (by decide)]
    simp only [Option.getD_none, if_true, h]

theorem stringCell_spec (shared : List Value) (row col xf id : Nat) {content : Content} {v : Value}
    (hs : shared[id]? = some v) (hm : Meant content { value := some v }) :
    ∃ ts, CellWritten shared row col xf content (stringCellText (row + 1) (columnNumberToName col) id xf) ts := by
  have hn := showNat_num id
  refine cell_node (cm := false) (t := some "s".toList) (ks := [.data "v".toList (showNat id) []])
    (by intro s hs; injection hs with hs; subst hs; decide) ?_
    (xmlText_data (by decide) (num_xmlText hn)) hm rfl (v_no_formula _) ?_
  · rw [v_text, escapeXmlData_num hn]
    simp [stringCellText, afterStyle, mayText]
  · unfold readValue
    rw [childText_data, excel_num hn]
    simp only [Option.getD_some]
    rw [if_neg (by decide), if_neg (by decide), if_pos trivial, readNat_showNat, Option.bind_some, hs]; rfl

theorem booleanCell_spec (shared : List Value) (row col xf : Nat) (b : Bool) :
    ∃ ts, CellWritten shared row col xf (.boolean b) (booleanCellText (row + 1) (columnNumberToName col) b xf) ts := by
  refine cell_node (cm := false) (t := some "b".toList)
    (ks := [.data "v".toList (if b then "1".toList else "0".toList) []])
    (by intro s hs; injection hs with hs; subst hs; decide) ?_
    (by cases b <;> decide) (.boolean b) rfl (v_no_formula _) ?_
  · rw [v_text]
    cases b
    · rw [show escapeXmlData (if false = true then "1".toList else "0".toList) = "0".toList by decide +kernel]
      simp [booleanCellText, afterStyle, mayText]
    · rw [show escapeXmlData (if true = true then "1".toList else "0".toList) = "1".toList by decide +kernel]
      simp [booleanCellText, afterStyle, mayText]
  · cases b <;> rfl

theorem blankCell_spec (shared : List Value) (row col xf : Nat) :
    ∃ ts, CellWritten shared row col xf .blank (blankCellText (row + 1) (columnNumberToName col) xf) ts := by
  by_cases h : xf > 0
  · refine ⟨[.empty "c".toList (cAttrs row col xf false none none)], ?_, ?_, Or.inr ⟨_, {}, rfl, .blank, ?_⟩⟩
    · have := c_empty_text row col xf false none none (by simp)
      simp only [callsList, List.append_nil, this]
      unfold blankCellText styleText afterStyle
      rw [if_pos h, if_pos h]
      simp [mayText]
    · have hg := cAttrs_good row col xf false none none (by simp)
      simp only [treesOk, treeOk, List.all_eq_true.mpr hg.1, decide_eq_true hg.2, Bool.and_true]
      decide
    · rw [Tree.toNode, readCell_c shared row col xf false none none [] none none rfl rfl]; rfl
  · refine ⟨[], ?_, rfl, Or.inl ⟨rfl, rfl, by omega⟩⟩
    unfold blankCellText; rw [if_neg h]; rfl

theorem inlineString_spec (shared : List Value) (row col xf : Nat) (s : Str) (h : xmlText s = true) :
    ∃ ts, CellWritten shared row col xf (.text s) (inlineStringCellText (row + 1) (columnNumberToName col) s xf) ts := by
  have hr := readT_data s _ preserve_false
  refine cell_node (cm := false) (t := some "inlineStr".toList)
    (ks := [.node "is".toList [] [.data "t".toList (escapeXmlEscapes s)
      (siAttrs (s.head?.any isSstWhitespace || s.getLast?.any isSstWhitespace))]])
    (by intro s hs; injection hs with hs; subst hs; decide) ?_ ?_ (.text s) rfl ?_ ?_
  · unfold inlineStringCellText
    simp only [callsList, Tree.calls, writeCalls, List.flatMap_cons, List.flatMap_append, List.flatMap_nil,
      List.append_nil, Call.write]
    cases (s.head?.any isSstWhitespace || s.getLast?.any isSstWhitespace)
    · simp [siAttrs, xmlStartTag, xmlEndTag, xmlDataElement, writeAttributes, afterStyle, mayText]
    · have e : writeAttributes [("xml:space".toList, "preserve".toList)] = " xml:space=\"preserve\"".toList := by
        decide +kernel
      simp only [siAttrs, if_true, xmlDataElement, e]
      simp [xmlStartTag, xmlEndTag, writeAttributes, afterStyle, mayText]
  · have := siTree_ok s (s.head?.any isSstWhitespace || s.getLast?.any isSstWhitespace) h
    generalize hk : [Tree.data "t".toList (escapeXmlEscapes s)
      (siAttrs (s.head?.any isSstWhitespace || s.getLast?.any isSstWhitespace))] = ks
    have h2 : treesOk ks = true := by
      rw [← hk]
      unfold siTree at this
      rw [treeOk] at this
      simp only [Bool.and_eq_true] at this
      exact this.2
    simp only [treesOk, treeOk, h2, Bool.and_true]; decide
  · exact formula_none _ (by intro t ht; simp at ht; subst ht; simp [treeTag])
  · unfold readValue
    rw [if_pos (by rfl), child_head (t := "is".toList) _ _ rfl]
    simp only [Option.bind_some, treeParts, toNodes, readString, hr, Option.map_some]

theorem inlineRich_spec (shared : List Value) (row col xf : Nat) {segs : List (Format × Text)} {markup raw : Str}
    (h : getRichString segs = some (markup, raw)) (hok : segsOk segs = true) :
    ∃ ts, CellWritten shared row col xf (.rich markup raw)
      (inlineRichCellText (row + 1) (columnNumberToName col) markup xf) ts := by
  obtain ⟨ts, e, ho, hr⟩ := rich_spec h hok
  refine cell_node (cm := false) (t := some "inlineStr".toList) (ks := [.node "is".toList [] ts])
    (by intro s hs; injection hs with hs; subst hs; decide) ?_ ?_ (.rich segs markup raw h hok) rfl ?_ ?_
  · unfold inlineRichCellText
    simp only [callsList, Tree.calls, writeCalls, List.flatMap_cons, List.flatMap_append, List.flatMap_nil,
      List.append_nil, Call.write]
    rw [e]
    simp [xmlStartTag, xmlEndTag, writeAttributes, afterStyle, mayText, writeCalls]
  · simp only [treesOk, treeOk, ho, Bool.and_true]; decide
  · exact formula_none _ (by intro t ht; simp at ht; subst ht; simp [treeTag])
  · unfold readValue
    rw [if_pos (by rfl), child_head (t := "is".toList) _ _ rfl]
    simp only [Option.bind_some, treeParts, hr, Option.map_some]

theorem resData_xmlText {r : Str} (h : xmlText r = true) : xmlText (resData r) = true := by
  unfold resData
  split
  · decide
  · split
    · decide
    · exact h

theorem formulaOk_iff {s : Str} : formulaTextOk s = true ↔ xmlText s = true ∧ escapeFree s = true := by
  simp [formulaTextOk]

theorem formulaCell_spec (shared : List Value) (row col xf : Nat) (f r : Str) (hf : formulaTextOk f = true)
    (hr : formulaTextOk r = true) (hw : numberWord r = false) :
    ∃ ts, CellWritten shared row col xf (.formula f r) (formulaCellText (row + 1) (columnNumberToName col) f xf r) ts := by
  have hf' := formulaOk_iff.mp hf
  have hr' := formulaOk_iff.mp hr
  refine cell_node (cm := false) (t := resType r)
    (ks := [.data "f".toList f [], .data "v".toList (resData r) []])
    (fun s hs => resType_ref r s hs) ?_ ?_ (.formula f r) rfl ?_ ?_
  · unfold formulaCellText
    rw [resultType_eq, resultText_eq]
    simp [callsList, Tree.calls, writeCalls, Call.write, xmlDataElement, writeAttributes, afterStyle, mayText]
  · have h1 := xmlText_data (t := "f".toList) (by decide) hf'.1
    have h2 := xmlText_data (t := "v".toList) (by decide) (resData_xmlText hr'.1)
    simp only [treesOk, Bool.and_true] at h1 h2 ⊢
    rw [h1, h2]; rfl
  · unfold readCellFormula
    rw [child_head (t := "f".toList) _ _ rfl]
    simp only [treeParts]
    rw [textOnly_data]
    simp only [List.lookup_nil, unescape_free hf'.2]
  · refine readValue_result shared r hr hw _ ?_
    have : childText "v".toList (toNodes [.data "f".toList f [], .data "v".toList (resData r) []]) =
        childText "v".toList (toNodes [.data "v".toList (resData r) []]) := by
      unfold childText; rw [child_skip _ _ (by simp [treeTag])]
    rw [this]
    exact childText_data _ _ _ _

theorem arrayCell_spec (shared : List Value) (row col xf : Nat) (f r : Str) (d : Bool) (g : Str)
    (hf : formulaTextOk f = true) (hr : formulaTextOk r = true) (hw : numberWord r = false)
    (hg : g.all refChar = true) :
    ∃ ts, CellWritten shared row col xf (.array f r d g)
      (arrayFormulaCellText (row + 1) (columnNumberToName col) f xf r d g) ts := by
  have hf' := formulaOk_iff.mp hf
  have hr' := formulaOk_iff.mp hr
  refine cell_node (cm := d) (t := resType r)
    (ks := [.data "f".toList f [("t".toList, "array".toList), ("ref".toList, g)], .data "v".toList (resData r) []])
    (fun s hs => resType_ref r s hs) ?_ ?_ (.array f r g d) rfl ?_ ?_
  · unfold arrayFormulaCellText
    rw [resultType_eq, resultText_eq]
    have e : writeAttributes [("t".toList, "array".toList), ("ref".toList, g)] =
        " t=\"array\" ref=\"".toList ++ g ++ ['"'] := by
      rw [writeAttributes_cons]
      rw [show writeAttributes [("t".toList, "array".toList)] = " t=\"array\"".toList by decide +kernel]
      simp only [writeAttributes, List.flatMap_cons, List.flatMap_nil, List.append_nil, writeAttribute_ref hg]
      simp
    simp only [callsList, Tree.calls, writeCalls, List.flatMap_cons, List.flatMap_append, List.flatMap_nil,
      List.append_nil, Call.write, xmlDataElement, e, List.cons_append, List.nil_append]
    simp [writeAttributes, afterStyle, mayText]
  · have h2 := xmlText_data (t := "v".toList) (by decide) (resData_xmlText hr'.1)
    have hgd : attrsGood [("t".toList, "array".toList), ("ref".toList, g)] :=
      attrsGood_cons (by decide) (attrsGood_one (by decide) (ref_attrSafe hg)) (by simp)
    have h1 : treeOk (.data "f".toList f [("t".toList, "array".toList), ("ref".toList, g)]) = true := by
      have : f.all (fun c => !isNonChar c) = true := hf'.1
      simp only [treeOk, this, List.all_eq_true.mpr hgd.1, decide_eq_true hgd.2, Bool.and_true]; decide
    simp only [treesOk, Bool.and_true] at h2 ⊢
    rw [h1, h2]; rfl
  · unfold readCellFormula
    rw [child_head (t := "f".toList) _ _ rfl]
    simp only [treeParts]
    rw [textOnly_data, look_eq, look_ne (by decide), look_eq]
    simp only [if_true, unescape_free hf'.2]
  · refine readValue_result shared r hr hw _ ?_
    have : childText "v".toList (toNodes [.data "f".toList f [("t".toList, "array".toList), ("ref".toList, g)],
        .data "v".toList (resData r) []]) = childText "v".toList (toNodes [.data "v".toList (resData r) []]) := by
      unfold childText; rw [child_skip _ _ (by simp [treeTag])]
    rw [this]
    exact childText_data _ _ _ _

theorem range_ref {g : Str} (h : g.all (fun c => isLetter c || isDigit c || c = ':') = true) : g.all refChar = true := by
  rw [List.all_eq_true] at h ⊢
  intro c hc
  have := h c hc
  simp only [refChar, this, Bool.true_or]

/-- Every written cell. -/
theorem cellText_spec (cm : Bool) (images : List Nat) (shared : List Value) (si : List Str) (hsh : SharedOk shared si)
    (row col : Nat) (cell : Cell) (xf : Nat) (hw : cell.isWritten cm = true) (hres : cell.resolvesIn si)
    (hok : contentOk cell.content) :
    ∃ ts, CellWritten shared row col xf cell.content (cellText cm images row col cell xf) ts := by
  cases cell with
  | number n x => exact numberCell_spec shared row col xf n hok (.number n)
  | dateTime n x => exact numberCell_spec shared row col xf n hok (.dateTime n)
  | string s x o =>
    cases o with
    | none => cases hw
    | some id =>
      obtain ⟨v, hv, hk⟩ := hsh id s hres
      have := hk.1 hok.2
      subst this
      exact stringCell_spec shared row col xf id hv (.text s)
  | rich s raw x o =>
    obtain ⟨segs, h1, h2⟩ := hok
    cases cm with
    | true => exact inlineRich_spec shared row col xf h1 h2
    | false =>
      cases o with
      | none => cases hw
      | some id =>
        obtain ⟨v, hv, hk⟩ := hsh id s hres
        have := hk.2 segs raw h1 h2
        subst this
        exact stringCell_spec shared row col xf id hv (.rich segs s raw h1 h2)
  | inlineString s x => exact inlineString_spec shared row col xf s hok.1
  | formula f r x => exact formulaCell_spec shared row col xf f r hok.1 hok.2.1 hok.2.2
  | arrayFormula f r x d g => exact arrayCell_spec shared row col xf f r d g hok.1 hok.2.1 hok.2.2.1 (range_ref hok.2.2.2)
  | blank x => exact blankCell_spec shared row col xf
  | boolean b x => exact booleanCell_spec shared row col xf b
  | error v x => exact absurd hok id

end Verif
