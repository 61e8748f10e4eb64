import Verif.Lemmas.CellNumber
import Verif.Props.MergeRange
import Verif.Props.ChartDoc
/-!
The texts of the cells as element trees.
-/
set_option linter.unusedSimpArgs false
namespace Verif
open Spec

/-! ### Texts that need no escape -/

theorem escA_plain {c : Char} (h : c ≠ '&' ∧ c ≠ '"' ∧ c ≠ '<' ∧ c ≠ '>' ∧ c ≠ '\n') : escA c = [c] := by
  obtain ⟨h1, h2, h3, h4, h5⟩ := h
  have b1 : (c == '&') = false := by simpa using h1
  have b2 : (c == '"') = false := by simpa using h2
  have b3 : (c == '<') = false := by simpa using h3
  have b4 : (c == '>') = false := by simpa using h4
  have b5 : (c == '\n') = false := by simpa using h5
  simp only [escA, matchAttributeHtmlChar, attributeCharTable, List.lookup, b1, b2, b3, b4, b5, Option.getD_none]

theorem flatMap_id {s : Str} {f : Char → Str} (h : ∀ c ∈ s, f c = [c]) : s.flatMap f = s := by
  induction s with
  | nil => rfl
  | cons c s ih =>
    rw [List.flatMap_cons, h c List.mem_cons_self, ih fun x hx => h x (List.mem_cons_of_mem _ hx)]; rfl

/-- Letters, digits and the colon. -/
def refChar (c : Char) : Bool := isLetter c || isDigit c || c = ':' || ('a' ≤ c && c ≤ 'z')

theorem refChar_plain {c : Char} (h : refChar c = true) : c ≠ '&' ∧ c ≠ '"' ∧ c ≠ '<' ∧ c ≠ '>' ∧ c ≠ '\n' := by
  refine ⟨?_, ?_, ?_, ?_, ?_⟩ <;> rintro rfl <;> exact absurd h (by decide)

theorem escapeAttributes_ref {s : Str} (h : s.all refChar = true) : escapeAttributes s = s := by
  rw [escapeAttributes_eq]
  exact flatMap_id fun c hc => escA_plain (refChar_plain (List.all_eq_true.mp h c hc))

theorem showNat_ref (n : Nat) : (showNat n).all refChar = true := by
  rw [List.all_eq_true]
  intro c hc
  simp [refChar, showNat_isDigit hc]

theorem columnName_ref (c : Nat) : (columnNumberToName c).all refChar = true := by
  rw [List.all_eq_true]
  intro x hx
  simp [refChar, List.all_eq_true.mp (columnName_all c) x hx]

theorem ref_ref (r c : Nat) : (rowColToCell r c).all refChar = true := by
  unfold rowColToCell
  rw [List.all_append, columnName_ref, showNat_ref]; rfl

theorem cellRange_ref (r1 c1 r2 c2 : Nat) : (cellRange r1 c1 r2 c2).all refChar = true := by
  unfold cellRange
  simp only
  split
  · exact ref_ref _ _
  · rw [List.all_append, List.all_cons, ref_ref, ref_ref]; rfl

theorem ref_attrSafe {s : Str} (h : s.all refChar = true) : attrSafe s = true := by
  unfold attrSafe
  rw [List.all_eq_true] at h ⊢
  intro c hc
  have := h c hc
  have hd : ((isLetter c = true ∨ isDigit c = true) ∨ c = ':') ∨ ('a' ≤ c ∧ c ≤ 'z') := by
    simpa [refChar, Bool.or_eq_true] using this
  rcases hd with (hd | rfl) | hd
  · have := digit_attrSafe (s := [c]) (by
      intro x hx
      simp at hx; subst hx
      exact hd.symm)
    simpa [attrSafe] using this
  · decide
  · have h1 : 97 ≤ c.toNat := hd.1
    have h2 : c.toNat ≤ 122 := hd.2
    have n1 : c ≠ '\t' := by rintro rfl; exact absurd h1 (by decide)
    have n2 : c ≠ '\r' := by rintro rfl; exact absurd h1 (by decide)
    simp [xmlChar, n1, n2]
    omega

theorem numChar_escD {c : Char} (h : numChar c = true) : escD c = [c] := by
  have hn : 43 ≤ c.toNat ∧ c.toNat ≤ 57 ∨ c.toNat = 101 ∨ c.toNat = 69 := by
    have h' : ((((isDigit c = true ∨ c = '+') ∨ c = '-') ∨ c = '.') ∨ c = 'e') ∨ c = 'E' := by
      simpa [numChar, Bool.or_eq_true] using h
    rcases h' with ((((h' | rfl) | rfl) | rfl) | rfl) | rfl
    · simp only [isDigit, Bool.and_eq_true, decide_eq_true_eq] at h'
      have h1 : 48 ≤ c.toNat := h'.1
      have h2 : c.toNat ≤ 57 := h'.2
      omega
    all_goals decide
  have hne : ∀ x : Char, (x.toNat < 43 ∨ (57 < x.toNat ∧ x.toNat < 69)) → (c == x) = false := by
    intro x hx
    simp only [beq_eq_false_iff_ne]
    rintro rfl
    omega
  unfold escD matchXmlChar
  rw [List.lookup_eq_none_iff.mpr]
  · rfl
  · intro p hp
    have hall : ∀ q ∈ xmlCharTable, q.1.toNat < 43 ∨ (57 < q.1.toNat ∧ q.1.toNat < 69) := by decide
    exact by
      have := hne p.1 (hall p hp)
      simpa using this

theorem escapeXmlData_num {s : Str} (h : s.all numChar = true) : escapeXmlData s = s := by
  rw [escapeXmlData_eq]
  exact flatMap_id fun c hc => numChar_escD (List.all_eq_true.mp h c hc)

theorem showNat_num (n : Nat) : (showNat n).all numChar = true := by
  rw [List.all_eq_true]
  intro c hc
  simp [numChar, showNat_isDigit hc]

theorem decimal_num {s : Str} (h : isDecimal s = true) : s.all numChar = true := decimal_chars s _ h

/-! ### The trees -/

/-- An attribute that may be missing. -/
def mayAttr (k : Str) (o : Option Str) : Attrs := match o with | some v => [(k, v)] | none => []

/-- Its text. -/
def mayText (k : Str) (o : Option Str) : Str :=
  match o with | some v => ' ' :: k ++ "=\"".toList ++ v ++ ['"'] | none => []

theorem mayAttr_text (k : Str) (o : Option Str) (h : ∀ s, o = some s → s.all refChar = true) :
    writeAttributes (mayAttr k o) = mayText k o := by
  cases o with
  | none => rfl
  | some v =>
    simp only [mayAttr, mayText, writeAttributes, List.flatMap_cons, List.flatMap_nil, List.append_nil, writeAttribute,
      escapeAttributes_ref (h v rfl)]

/-- The attributes of a `c` element. -/
def cAttrs (row col xf : Nat) (cm : Bool) (t : Option Str) (vm : Option Nat) : Attrs :=
  ("r".toList, rowColToCell row col) ::
  ((if xf > 0 then [("s".toList, showNat xf)] else []) ++
  ((if cm then [("cm".toList, "1".toList)] else []) ++
  (mayAttr "t".toList t ++ mayAttr "vm".toList (vm.map showNat))))

theorem cAttrs_names (row col xf : Nat) (cm : Bool) (t : Option Str) (vm : Option Nat) :
    ((cAttrs row col xf cm t vm).map Prod.fst).Sublist
      ["r".toList, "s".toList, "cm".toList, "t".toList, "vm".toList] := by
  unfold cAttrs
  by_cases h : xf > 0 <;> cases cm <;> cases t <;> cases vm <;>
    simp only [h, mayAttr, Option.map_some, Option.map_none, if_true, if_false, Bool.false_eq_true, List.nil_append, List.cons_append, List.map_cons, List.map_nil] <;>
    decide

theorem cAttrs_good (row col xf : Nat) (cm : Bool) (t : Option Str) (vm : Option Nat)
    (ht : ∀ s, t = some s → attrSafe s = true) : attrsGood (cAttrs row col xf cm t vm) := by
  refine attrsGood_sub ?_ (cAttrs_names row col xf cm t vm) (by decide)
  intro a ha
  unfold cAttrs at ha
  rcases List.mem_cons.mp ha with rfl | ha
  · exact attrOk_of (by decide) (cell_attrSafe _ _)
  rcases List.mem_append.mp ha with ha | ha
  · split at ha
    · simp at ha; subst ha; exact attrOk_of (by decide) (showNat_attrSafe _)
    · cases ha
  rcases List.mem_append.mp ha with ha | ha
  · split at ha
    · simp at ha; subst ha; decide
    · cases ha
  rcases List.mem_append.mp ha with ha | ha
  · cases t with
    | none => cases ha
    | some t => simp [mayAttr] at ha; subst ha; exact attrOk_of (by decide) (ht _ rfl)
  · cases vm with
    | none => cases ha
    | some v => simp [mayAttr] at ha; subst ha; exact attrOk_of (by decide) (showNat_attrSafe _)

theorem cAttrs_r (row col xf : Nat) (cm : Bool) (t : Option Str) (vm : Option Nat) :
    (cAttrs row col xf cm t vm).lookup "r".toList = some (rowColToCell row col) := look_eq _ _ _

theorem cAttrs_s (row col xf : Nat) (cm : Bool) (t : Option Str) (vm : Option Nat) :
    (cAttrs row col xf cm t vm).lookup "s".toList = if xf > 0 then some (showNat xf) else none := by
  unfold cAttrs
  rw [look_ne (by decide)]
  by_cases h : xf > 0
  · rw [if_pos h, if_pos h]; rfl
  · rw [if_neg h, if_neg h]
    cases cm <;> cases t <;> cases vm <;> rfl

theorem cAttrs_cm (row col xf : Nat) (cm : Bool) (t : Option Str) (vm : Option Nat) :
    (cAttrs row col xf cm t vm).lookup "cm".toList = if cm then some "1".toList else none := by
  unfold cAttrs
  rw [look_ne (by decide)]
  by_cases h : xf > 0
  · rw [if_pos h]; cases cm <;> cases t <;> cases vm <;> rfl
  · rw [if_neg h]; cases cm <;> cases t <;> cases vm <;> rfl

theorem cAttrs_t (row col xf : Nat) (cm : Bool) (t : Option Str) (vm : Option Nat) :
    (cAttrs row col xf cm t vm).lookup "t".toList = t := by
  unfold cAttrs
  rw [look_ne (by decide)]
  by_cases h : xf > 0
  · rw [if_pos h]; cases cm <;> cases t <;> cases vm <;> rfl
  · rw [if_neg h]; cases cm <;> cases t <;> cases vm <;> rfl

theorem cAttrs_vm (row col xf : Nat) (cm : Bool) (t : Option Str) (vm : Option Nat) :
    (cAttrs row col xf cm t vm).lookup "vm".toList = vm.map showNat := by
  unfold cAttrs
  rw [look_ne (by decide)]
  by_cases h : xf > 0
  · rw [if_pos h]; cases cm <;> cases t <;> cases vm <;> rfl
  · rw [if_neg h]; cases cm <;> cases t <;> cases vm <;> rfl

/-- Reading a `c` element with these attributes. -/
theorem readCell_c (shared : List Value) (row col xf : Nat) (cm : Bool) (t : Option Str) (vm : Option Nat)
    (ks : List Node) (f : Option (Text × Option Text)) (v : Option Value) (hf : readCellFormula ks = some f)
    (hv : readValue shared (t.getD "n".toList) ks = some v) :
    readCellElem shared (.elem "c".toList (cAttrs row col xf cm t vm) ks) =
      some { row := row, col := col, style := xf, formula := f, cm := if cm then some 1 else none, vm := vm,
             value := v } := by
  have h1 : optNat (cAttrs row col xf cm t vm) "s".toList = some (if xf > 0 then some xf else none) := by
    unfold optNat; rw [cAttrs_s]
    by_cases h : xf > 0
    · rw [if_pos h, if_pos h]; simp only [readNat_showNat, Option.map_some]
    · rw [if_neg h, if_neg h]
  have h2 : optNat (cAttrs row col xf cm t vm) "cm".toList = some (if cm then some 1 else none) := by
    unfold optNat; rw [cAttrs_cm]
    cases cm
    · rfl
    · decide
  have h3 : optNat (cAttrs row col xf cm t vm) "vm".toList = some vm := by
    unfold optNat; rw [cAttrs_vm]
    cases vm
    · rfl
    · simp only [Option.map_some, readNat_showNat]
  simp only [readCellElem]
  rw [if_neg (fun h => h rfl)]
  rw [cAttrs_r, cAttrs_t, h1, h2, h3, hf, hv]
  simp only [Option.bind_some, readA1_cell, Option.some.injEq]
  congr 1
  by_cases h : xf > 0
  · rw [if_pos h]; rfl
  · rw [if_neg h]; simp only [Option.getD_none]; omega

theorem writeAttributes_append (a b : Attrs) : writeAttributes (a ++ b) = writeAttributes a ++ writeAttributes b := by
  simp [writeAttributes]

theorem writeAttribute_ref {k v : Str} (h : v.all refChar = true) :
    writeAttribute (k, v) = ' ' :: k ++ "=\"".toList ++ v ++ ['"'] := by
  unfold writeAttribute; rw [escapeAttributes_ref h]

/-- The text after the style attribute. -/
def afterStyle (cm : Bool) (t : Option Str) (vm : Option Nat) : Str :=
  (if cm then " cm=\"1\"".toList else []) ++
  mayText "t".toList t ++ mayText "vm".toList (vm.map showNat)

theorem sAttr_text (xf : Nat) : writeAttributes (if xf > 0 then [("s".toList, showNat xf)] else []) = styleText xf := by
  unfold styleText
  by_cases h : xf > 0
  · rw [if_pos h, if_pos h]
    simp only [writeAttributes, List.flatMap_cons, List.flatMap_nil, List.append_nil, writeAttribute_ref (showNat_ref xf)]
    generalize showNat xf = n
    simp
  · rw [if_neg h, if_neg h]; rfl

theorem cm_text (cm : Bool) : writeAttributes (if cm then [("cm".toList, "1".toList)] else []) =
    (if cm then " cm=\"1\"".toList else []) := by
  cases cm
  · rfl
  · decide +kernel

theorem r_text (row col : Nat) : writeAttributes [("r".toList, rowColToCell row col)] =
    " r=\"".toList ++ (columnNumberToName col ++ (showNat (row + 1) ++ ['"'])) := by
  simp only [writeAttributes, List.flatMap_cons, List.flatMap_nil, List.append_nil, writeAttribute_ref (ref_ref row col)]
  unfold rowColToCell
  generalize showNat (row + 1) = n
  generalize columnNumberToName col = m
  simp

theorem writeAttributes_cons (a : Str × Str) (r : Attrs) :
    writeAttributes (a :: r) = writeAttributes [a] ++ writeAttributes r := writeAttributes_append [a] r

theorem cAttrs_text (row col xf : Nat) (cm : Bool) (t : Option Str) (vm : Option Nat)
    (ht : ∀ s, t = some s → s.all refChar = true) :
    '<' :: 'c' :: writeAttributes (cAttrs row col xf cm t vm) =
      cellOpen (row + 1) (columnNumberToName col) ++ styleText xf ++ afterStyle cm t vm := by
  have h5 := mayAttr_text "vm".toList (vm.map showNat) (by
    intro s hs
    cases vm with
    | none => cases hs
    | some v => rw [Option.map_some] at hs; injection hs with hs; subst hs; exact showNat_ref v)
  unfold cAttrs
  rw [writeAttributes_cons, writeAttributes_append, writeAttributes_append, writeAttributes_append, r_text, sAttr_text,
    cm_text, mayAttr_text _ t ht, h5]
  unfold cellOpen afterStyle
  generalize mayText "vm".toList (vm.map showNat) = x1
  generalize mayText "t".toList t = x2
  generalize showNat (row + 1) = n
  generalize columnNumberToName col = m
  generalize styleText xf = x3
  simp

/-- A `c` element with children as text. -/
theorem c_node_text (row col xf : Nat) (cm : Bool) (t : Option Str) (vm : Option Nat) (ks : List Tree)
    (ht : ∀ s, t = some s → s.all refChar = true) :
    writeCalls (Tree.node "c".toList (cAttrs row col xf cm t vm) ks).calls =
      cellOpen (row + 1) (columnNumberToName col) ++ styleText xf ++ afterStyle cm t vm ++ ['>'] ++
        writeCalls (callsList ks) ++ "</c>".toList := by
  rw [← cAttrs_text row col xf cm t vm ht]
  simp [Tree.calls, writeCalls, Call.write, xmlStartTag, xmlEndTag]

theorem c_empty_text (row col xf : Nat) (cm : Bool) (t : Option Str) (vm : Option Nat)
    (ht : ∀ s, t = some s → s.all refChar = true) :
    writeCalls (Tree.empty "c".toList (cAttrs row col xf cm t vm)).calls =
      cellOpen (row + 1) (columnNumberToName col) ++ styleText xf ++ afterStyle cm t vm ++ ['/', '>'] := by
  rw [← cAttrs_text row col xf cm t vm ht]
  simp [Tree.calls, writeCalls, Call.write, xmlEmptyTag]

theorem v_text (d : Str) : writeCalls (callsList [.data "v".toList d []]) =
    "<v>".toList ++ escapeXmlData d ++ "</v>".toList := by
  simp [callsList, Tree.calls, writeCalls, Call.write, xmlDataElement, writeAttributes]

/-! ### Values -/

theorem excel_id {s : Str} (h : ∀ c ∈ s, isControl c = false) : excelControlEscape s = s := by
  unfold excelControlEscape
  refine flatMap_id fun c hc => ?_
  rw [h c hc]; rfl

theorem excel_num {s : Str} (h : s.all numChar = true) : excelControlEscape s = s := by
  refine excel_id fun c hc => ?_
  have h1 := List.all_eq_true.mp h c hc
  cases hk : isControl c with
  | false => rfl
  | true =>
    have : c.toNat < 32 := by
      simp only [isControl, Bool.and_eq_true, decide_eq_true_eq] at hk; exact hk.1.1
    have h' : ((((isDigit c = true ∨ c = '+') ∨ c = '-') ∨ c = '.') ∨ c = 'e') ∨ c = 'E' := by
      simpa [numChar, Bool.or_eq_true] using h1
    rcases h' with ((((h' | rfl) | rfl) | rfl) | rfl) | rfl
    · simp only [isDigit, Bool.and_eq_true, decide_eq_true_eq] at h'
      have h1 : 48 ≤ c.toNat := h'.1
      omega
    all_goals exact absurd this (by decide)

theorem escapeFree_id {s : Str} (h : escapeFree s = true) : escapeXmlEscapes s = s := by
  fun_induction escapeXmlEscapes s with
  | case1 a b c d e rest hx ih =>
    simp only [escapeFree, startsEscape, Bool.and_eq_true, Bool.not_eq_true'] at h
    have hd : ∀ x, isAsciiHexDigit x = true → (hexDigit? x).isSome = true := by
      intro x hx
      unfold isAsciiHexDigit at hx
      unfold hexDigit?
      simp only [Bool.or_eq_true] at hx
      rcases hx with (hx | hx) | hx
      · rw [if_pos hx]; rfl
      · split
        · rfl
        · first | rfl | (rw [if_pos hx]; rfl)
      · split
        · rfl
        · split
          · rfl
          · first | rfl | (rw [if_pos hx]; rfl)
    simp only [Bool.and_eq_true] at hx
    rw [hd a hx.1.1.1, hd b hx.1.1.2, hd c hx.1.2, hd d hx.2] at h
    simp at h
  | case2 a b c d e rest hx ih =>
    rw [escapeFree, Bool.and_eq_true] at h
    rw [ih h.2]
  | case3 c rest hne ih =>
    rw [escapeFree, Bool.and_eq_true] at h
    rw [ih h.2]
  | case4 => rfl

theorem unescape_free {s : Str} (h : escapeFree s = true) : unescapeX (excelControlEscape s) = s := by
  have := unescape_escape s
  rwa [escapeFree_id h] at this

theorem childText_data (t d : Str) (as : Attrs) (r : List Tree) :
    childText t (toNodes (.data t d as :: r)) = some (excelControlEscape d) := by
  unfold childText
  rw [child_head (t := t) (.data t d as) r rfl]
  simp only [Option.bind_some, treeParts]
  exact textOnly_data d

theorem child_v_some (d : Str) (as : Attrs) (r : List Tree) :
    (child "v".toList (toNodes (.data "v".toList d as :: r))).isNone = false := by
  rw [child_head (t := "v".toList) _ _ rfl]; rfl

theorem formula_none (ts : List Tree) (h : ∀ t ∈ ts, treeTag t ≠ "f".toList) :
    readCellFormula (toNodes ts) = some none := by
  have : child "f".toList (toNodes ts) = none := by
    induction ts with
    | nil => rfl
    | cons t ts ih =>
      rw [child_skip _ _ (h t List.mem_cons_self)]
      exact ih fun x hx => h x (List.mem_cons_of_mem _ hx)
  unfold readCellFormula
  rw [this]

theorem lookup_mem_pair {l : List (Char × Str)} {c : Char} {v : Str} (h : l.lookup c = some v) : (c, v) ∈ l := by
  induction l with
  | nil => cases h
  | cons p l ih =>
    rw [List.lookup_cons] at h
    split at h
    · rename_i e
      have : c = p.1 := by simpa using e
      cases h; subst this; exact List.mem_cons_self
    · exact List.mem_cons_of_mem _ (ih h)

theorem escD_head (c : Char) : escD c = [c] ∨ ∃ x r, escD c = x :: r ∧ (x = '&' ∨ x = '_') := by
  unfold escD matchXmlChar
  cases h : xmlCharTable.lookup c with
  | none => exact Or.inl rfl
  | some v =>
    right
    have hall : ∀ q ∈ xmlCharTable, q.2.head? = some '&' ∨ q.2.head? = some '_' := by decide
    have hm : (c, v) ∈ xmlCharTable := (lookup_mem_pair h)
    have := hall _ hm
    cases v with
    | nil => rcases this with h | h <;> cases h
    | cons x r =>
      refine ⟨x, r, rfl, ?_⟩
      rcases this with h | h
      · cases h; exact Or.inl rfl
      · cases h; exact Or.inr rfl

theorem escape_eq_plain {s w : Str} (hw : ∀ c ∈ w, c ≠ '&' ∧ c ≠ '_') (h : escapeXmlData s = w) : s = w := by
  rw [escapeXmlData_eq] at h
  induction s generalizing w with
  | nil => exact h
  | cons c s ih =>
    rw [List.flatMap_cons] at h
    rcases escD_head c with e | ⟨x, r, e, hx⟩
    · rw [e] at h
      cases w with
      | nil => cases h
      | cons y w =>
        simp only [List.singleton_append, List.cons.injEq] at h
        rw [h.1, ih (fun c hc => hw c (List.mem_cons_of_mem _ hc)) h.2]
    · rw [e] at h
      cases w with
      | nil => cases h
      | cons y w =>
        simp only [List.cons_append, List.cons.injEq] at h
        have := hw y List.mem_cons_self
        rcases hx with rfl | rfl
        · exact absurd h.1.symm this.1
        · exact absurd h.1.symm this.2

/-! ### Formula results -/

/-- The type of a result. -/
def resType (r : Str) : Option Str :=
  if !parsesAsF64 r then
    if errorTexts.contains r then some "e".toList
    else if r = "TRUE".toList || r = "FALSE".toList then some "b".toList else some "str".toList
  else none

/-- The data of a result. -/
def resData (r : Str) : Str :=
  if r = "TRUE".toList then "1".toList else if r = "FALSE".toList then "0".toList else r

theorem resultType_eq (r : Str) : resultType r = mayText "t".toList (resType r) := by
  unfold resultType resType
  split
  · split
    · rfl
    · split <;> rfl
  · rfl

theorem resType_ref (r s : Str) (h : resType r = some s) : s.all refChar = true := by
  unfold resType at h
  split at h
  · split at h
    · cases h; decide
    · split at h <;> cases h <;> decide
  · cases h

theorem resultText_eq (r : Str) : resultText r = escapeXmlData (resData r) := by
  unfold resultText resData
  by_cases h1 : r = "TRUE".toList
  · subst h1; decide +kernel
  · have n1 : escapeXmlData r ≠ "TRUE".toList := fun h => h1 (escape_eq_plain (by decide) h)
    by_cases h2 : r = "FALSE".toList
    · subst h2; decide +kernel
    · have n2 : escapeXmlData r ≠ "FALSE".toList := fun h => h2 (escape_eq_plain (by decide) h)
      simp only [n1, n2, h1, h2, if_false]

theorem true_not_num : parsesAsF64 "TRUE".toList = false ∧ parsesAsF64 "FALSE".toList = false := by
  constructor <;> decide +kernel

/-- A reader gets the value the result stands for. -/
theorem readValue_result (shared : List Value) (r : Str) (h1 : formulaTextOk r = true) (h2 : numberWord r = false)
    (ts : List Tree) (ht : childText "v".toList (toNodes ts) = some (excelControlEscape (resData r))) :
    readValue shared ((resType r).getD "n".toList) (toNodes ts) = some (some (resultMeant r)) := by
  have hp : parsesAsF64 r = isDecimal r := by rw [parsesAsF64_iff, h2, Bool.or_false]
  have hfree : escapeFree r = true := by
    simp only [formulaTextOk, Bool.and_eq_true] at h1; exact h1.2
  unfold readValue resultMeant resType
  rw [ht, hp]
  cases hd : isDecimal r with
  | true =>
    have hn : r ≠ "TRUE".toList ∧ r ≠ "FALSE".toList := by
      constructor <;> rintro rfl <;> exact absurd hd (by decide +kernel)
    have e : excelControlEscape (resData r) = r := by
      unfold resData; rw [if_neg hn.1, if_neg hn.2]; exact excel_num (decimal_num hd)
    rw [e]
    simp [hd]
  | false =>
    simp only [Bool.not_false, if_true, Bool.false_eq_true, if_false]
    by_cases he : errorTexts.contains r = true
    · have he' : cellErrors.contains r = true := he
      have hn : r ≠ "TRUE".toList ∧ r ≠ "FALSE".toList := by
        constructor <;> rintro rfl <;> exact absurd he (by decide +kernel)
      have e : excelControlEscape (resData r) = r := by
        unfold resData; rw [if_neg hn.1, if_neg hn.2]
        have hall : ∀ x ∈ errorTexts, excelControlEscape x = x := by decide +kernel
        exact hall r (by simpa using he)
      rw [e, if_pos he]
      simp only [Option.getD_some]
      rw [if_neg (by decide), if_neg (by decide), if_neg (by decide), if_neg (by decide), if_neg (by decide)]
      rw [if_pos trivial, if_pos he', if_pos he']
    · have he' : ¬ cellErrors.contains r = true := he
      rw [if_neg he, if_neg he']
      by_cases hT : r = "TRUE".toList
      · subst hT; rfl
      · by_cases hF : r = "FALSE".toList
        · subst hF; rfl
        · have e : resData r = r := by unfold resData; rw [if_neg hT, if_neg hF]
          rw [e, if_neg hT, if_neg hF]
          rw [if_neg (show ¬ (decide (r = "TRUE".toList) || decide (r = "FALSE".toList)) = true by
            rw [decide_eq_false hT, decide_eq_false hF]; decide)]
          simp only [Option.getD_some]
          rw [if_neg (by decide), if_neg (by decide), if_neg (by decide),
            if_pos trivial, unescape_free hfree]

end Verif
