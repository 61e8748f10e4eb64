import Verif.Lemmas.Xml
namespace Verif
open Spec

mutual
theorem callsOk_of_treeOk (t : Tree) (h : treeOk t = true) : t.calls.all callOk = true := by
  match t with
  | .node tag as kids =>
    simp only [treeOk, Bool.and_eq_true] at h
    have := callsOk_of_treesOk kids h.2
    simp only [Tree.calls, List.all_cons, List.all_append, List.all_nil, callOk, Bool.and_true,
      Bool.and_eq_true]
    exact ⟨⟨⟨h.1.1.1, h.1.1.2⟩, h.1.2⟩, this, h.1.1.1⟩
  | .empty tag as => simpa [Tree.calls, callOk, treeOk] using h
  | .data tag d as => simpa [Tree.calls, callOk, treeOk] using h
theorem callsOk_of_treesOk (ks : List Tree) (h : treesOk ks = true) :
    (callsList ks).all callOk = true := by
  match ks with
  | [] => rfl
  | k :: ks =>
    simp only [treesOk, Bool.and_eq_true] at h
    simp only [callsList, List.all_append, Bool.and_eq_true]
    exact ⟨callsOk_of_treeOk k h.1, callsOk_of_treesOk ks h.2⟩
end

theorem parseContent_tree (t : Tree) (h : treeOk t = true) :
    parseContent (writeCalls t.calls) = some [t.toNode] := by
  rw [parseContent_writeCalls _ (callsOk_of_treeOk t h)]
  have := build_tree t [] [] []
  simp only [List.append_nil] at this
  rw [this]; simp [build]

theorem parseContent_trees (ks : List Tree) (h : treesOk ks = true) :
    parseContent (writeCalls (callsList ks)) = some (toNodes ks) := by
  rw [parseContent_writeCalls _ (callsOk_of_treesOk ks h)]
  have := build_trees ks [] [] []
  simp only [List.append_nil] at this
  rw [this]; simp [build]

/-! ### `_xHHHH_` round trip -/

theorem escE_cons_ne (c : Char) (r : Str) (h : c ≠ '_') :
    escapeXmlEscapes (c :: r) = c :: escapeXmlEscapes r := by
  rw [escapeXmlEscapes]
  intro a b c' d e rest h1 h2
  exact h h1

theorem excel_cons (c : Char) (r : Str) :
    excelControlEscape (c :: r) =
      (if isControl c then excelEscapeOf c else [c]) ++ excelControlEscape r := by
  simp [excelControlEscape]

theorem isControl_underscore : isControl '_' = false := by decide

theorem escE_underscore_head (r : Str) : ∃ t, escapeXmlEscapes ('_' :: r) = '_' :: t := by
  rw [escapeXmlEscapes.eq_def]
  split
  · split
    · exact ⟨_, rfl⟩
    · exact ⟨_, rfl⟩
  · rename_i heq; cases heq; exact ⟨_, rfl⟩
  · rename_i heq; cases heq

theorem CE_head (r : Str) (a : Char) (t : Str) (ha : a ≠ '_')
    (h : excelControlEscape (escapeXmlEscapes r) = a :: t) :
    ∃ r', r = a :: r' ∧ t = excelControlEscape (escapeXmlEscapes r') := by
  cases r with
  | nil => simp [escapeXmlEscapes, excelControlEscape] at h
  | cons c r' =>
    by_cases hc : c = '_'
    · subst hc
      obtain ⟨u, hu⟩ := escE_underscore_head r'
      rw [hu, excel_cons, isControl_underscore] at h
      simp at h; exact absurd h.1.symm ha
    · rw [escE_cons_ne c r' hc, excel_cons] at h
      by_cases hk : isControl c = true
      · rw [if_pos hk] at h
        simp [excelEscapeOf] at h; exact absurd h.1.symm ha
      · rw [if_neg hk] at h
        simp at h
        exact ⟨r', by rw [h.1], h.2.symm⟩

theorem hexDigit?_isSome {c : Char} (h : (hexDigit? c).isSome = true) :
    isAsciiHexDigit c = true ∧ c ≠ '_' := by
  constructor
  · unfold hexDigit? at h
    unfold isAsciiHexDigit
    split at h
    · rename_i h1; simp only [Bool.or_eq_true]; exact Or.inl (Or.inl h1)
    · split at h
      · rename_i h1; simp only [Bool.or_eq_true]; exact Or.inl (Or.inr h1)
      · split at h
        · rename_i h1; simp only [Bool.or_eq_true]; exact Or.inr h1
        · simp at h
  · rintro rfl; revert h; decide

theorem numeral4 {a b c d : Char} {n : Nat} (h : numeral hexDigit? 16 [a, b, c, d] = some n) :
    (hexDigit? a).isSome = true ∧ (hexDigit? b).isSome = true ∧ (hexDigit? c).isSome = true ∧
    (hexDigit? d).isSome = true := by
  simp only [numeral, List.foldlM, reduceCtorEq, if_false] at h
  cases ha : hexDigit? a <;> simp [ha] at h ⊢
  cases hb : hexDigit? b <;> simp [hb] at h ⊢
  cases hc : hexDigit? c <;> simp [hc] at h ⊢
  cases hd : hexDigit? d <;> simp [hd] at h ⊢

theorem unescapeX_cons_ne (c : Char) (s : Str) (h : c ≠ '_') :
    unescapeX (c :: s) = c :: unescapeX s := by
  rw [unescapeX]
  intro a b c' d s' h1 h2
  exact h h1

theorem unescapeX_underscore (s : Str)
    (h : ∀ a b c d t, s = 'x' :: a :: b :: c :: d :: '_' :: t →
      numeral hexDigit? 16 [a, b, c, d] = none) :
    unescapeX ('_' :: s) = '_' :: unescapeX s := by
  rw [unescapeX.eq_def]
  split
  · rename_i a b c d s' heq
    simp only [List.cons.injEq, true_and] at heq
    have := h a b c d s' heq
    rw [this]; simp only
    rw [heq]
  · rename_i heq; cases heq; rfl
  · rename_i heq; cases heq

theorem unescapeX_control (c : Char) (s : Str) (h : isControl c = true) :
    unescapeX (excelEscapeOf c ++ s) = c :: unescapeX s := by
  have hc : c.toNat < 32 := by
    simp only [isControl, Bool.and_eq_true, decide_eq_true_eq] at h; omega
  have key : ∀ n : Fin 32, ∃ a b c d, excelEscapeOf (Char.ofNat n) = ['_','x',a,b,c,d,'_'] ∧
      numeral hexDigit? 16 [a, b, c, d] = some n.val := by
    intro n
    refine ⟨_, _, _, _, rfl, ?_⟩
    revert n; decide
  obtain ⟨a, b, c', d, h1, h2⟩ := key ⟨c.toNat, hc⟩
  simp only [Char.ofNat_toNat] at h1
  rw [h1]
  simp only [List.cons_append, List.nil_append]
  rw [unescapeX, h2]
  simp only [Char.ofNat_toNat]

theorem unescape_escape (s : Str) :
    unescapeX (excelControlEscape (escapeXmlEscapes s)) = s := by
  fun_induction escapeXmlEscapes s with
  | case1 a b c d e rest hx ih =>
    have : excelControlEscape ("_x005F".toList ++
        '_' :: escapeXmlEscapes ('x' :: a :: b :: c :: d :: e :: rest)) =
        '_' :: 'x' :: '0' :: '0' :: '5' :: 'F' :: '_' ::
          excelControlEscape (escapeXmlEscapes ('x' :: a :: b :: c :: d :: e :: rest)) := by
      simp only [excelControlEscape, List.flatMap_append, List.flatMap_cons]
      rfl
    rw [this, unescapeX]
    have : numeral hexDigit? 16 ['0', '0', '5', 'F'] = some 95 := by decide
    rw [this]
    simp only [ih]
  | case2 a b c d e rest hx ih =>
    rw [excel_cons, isControl_underscore]
    simp only [Bool.false_eq_true, if_false, List.singleton_append]
    rw [unescapeX_underscore, ih]
    intro a' b' c' d' t heq
    obtain ⟨r1, e1, f1⟩ := CE_head _ _ _ (by decide) heq
    cases hn : numeral hexDigit? 16 [a', b', c', d'] with
    | none => rfl
    | some n =>
      obtain ⟨ha, hb, hc, hd⟩ := numeral4 hn
      obtain ⟨r2, e2, f2⟩ := CE_head _ _ _ (hexDigit?_isSome ha).2 f1.symm
      obtain ⟨r3, e3, f3⟩ := CE_head _ _ _ (hexDigit?_isSome hb).2 f2.symm
      obtain ⟨r4, e4, f4⟩ := CE_head _ _ _ (hexDigit?_isSome hc).2 f3.symm
      obtain ⟨r5, e5, f5⟩ := CE_head _ _ _ (hexDigit?_isSome hd).2 f4.symm
      subst e2 e3 e4 e5
      simp only [List.cons.injEq, true_and] at e1
      obtain ⟨rfl, rfl, rfl, rfl, _⟩ := e1
      exfalso; apply hx
      simp [(hexDigit?_isSome ha).1, (hexDigit?_isSome hb).1, (hexDigit?_isSome hc).1,
        (hexDigit?_isSome hd).1]
  | case3 c rest hne ih =>
    rw [excel_cons]
    by_cases hk : isControl c = true
    · rw [if_pos hk, unescapeX_control c _ hk, ih]
    · rw [if_neg hk, List.singleton_append]
      by_cases hu : c = '_'
      · subst hu
        rw [unescapeX_underscore, ih]
        intro a' b' c' d' t heq
        obtain ⟨r1, e1, f1⟩ := CE_head _ _ _ (by decide) heq
        cases hn : numeral hexDigit? 16 [a', b', c', d'] with
        | none => rfl
        | some n =>
          obtain ⟨ha, hb, hc, hd⟩ := numeral4 hn
          obtain ⟨r2, e2, f2⟩ := CE_head _ _ _ (hexDigit?_isSome ha).2 f1.symm
          obtain ⟨r3, e3, f3⟩ := CE_head _ _ _ (hexDigit?_isSome hb).2 f2.symm
          obtain ⟨r4, e4, f4⟩ := CE_head _ _ _ (hexDigit?_isSome hc).2 f3.symm
          obtain ⟨r5, e5, f5⟩ := CE_head _ _ _ (hexDigit?_isSome hd).2 f4.symm
          subst e2 e3 e4 e5
          cases r5 with
          | nil => simp [escapeXmlEscapes, excelControlEscape] at f5
          | cons e r6 =>
            subst e1
            exact absurd rfl (hne _ _ _ _ _ _ rfl)
      · rw [unescapeX_cons_ne c _ hu, ih]
  | case4 => simp [excelControlEscape, unescapeX]

/-! ### white space -/

theorem escE_getLast (s : Str) : (escapeXmlEscapes s).getLast? = s.getLast? := by
  fun_induction escapeXmlEscapes s with
  | case1 a b c d e rest hx ih =>
    rw [List.getLast?_append, List.getLast?_cons, List.getLast?_cons, ih]
    simp [List.getLast?_cons]
  | case2 a b c d e rest hx ih =>
    rw [List.getLast?_cons, List.getLast?_cons, ih]
  | case3 c rest hne ih =>
    rw [List.getLast?_cons, List.getLast?_cons, ih]
  | case4 => rfl

theorem isWs_cases {c : Char} (h : isWs c = true) : isSstWhitespace c = true ∨ c = '\r' := by
  simp only [isWs, isSstWhitespace, Bool.or_eq_true, decide_eq_true_eq] at *
  rcases h with ((h|h)|h)|h <;> simp [h]

theorem ctl_last_not_ws (c : Char) (h : isSstWhitespace c = false) :
    ∀ x, ((if isControl c then excelEscapeOf c else [c]) : Str).getLast? = some x → isWs x = false := by
  intro x hx
  split at hx
  · simp [excelEscapeOf] at hx; subst hx; decide
  · rename_i hk
    simp at hx; subst hx
    cases hw : isWs c with
    | false => rfl
    | true =>
      rcases isWs_cases hw with h' | h'
      · rw [h] at h'; simp at h'
      · subst h'; exact absurd rfl hk

theorem ctl_head_not_ws (c : Char) (h : isSstWhitespace c = false) :
    ∀ x, ((if isControl c then excelEscapeOf c else [c]) : Str).head? = some x → isWs x = false := by
  intro x hx
  split at hx
  · simp [excelEscapeOf] at hx; subst hx; decide
  · rename_i hk
    simp at hx; subst hx
    cases hw : isWs c with
    | false => rfl
    | true =>
      rcases isWs_cases hw with h' | h'
      · rw [h] at h'; simp at h'
      · subst h'; exact absurd rfl hk

theorem trimWs_id (s : Str) (h1 : ∀ x, s.head? = some x → isWs x = false)
    (h2 : ∀ x, s.getLast? = some x → isWs x = false) : trimWs s = s := by
  have key : ∀ l : Str, (∀ x, l.head? = some x → isWs x = false) → l.dropWhile isWs = l := by
    intro l hl
    cases l with
    | nil => rfl
    | cons c cs => simp [hl c rfl]
  unfold trimWs
  rw [key s h1, key s.reverse (by simpa using h2), List.reverse_reverse]

theorem head?_append_ne {α} (a b : List α) (h : a ≠ []) : (a ++ b).head? = a.head? := by
  cases a with
  | nil => exact absurd rfl h
  | cons x xs => rfl

theorem getLast?_append_ne {α} (a b : List α) (h : b ≠ []) : (a ++ b).getLast? = b.getLast? := by
  rw [List.getLast?_append]
  cases hb : b.getLast? with
  | none => exact absurd (List.getLast?_eq_none_iff.mp hb) h
  | some x => rfl

theorem ctl_ne_nil (c : Char) : ((if isControl c then excelEscapeOf c else [c]) : Str) ≠ [] := by
  split <;> simp [excelEscapeOf]

theorem CE_head_not_ws (s : Str) (h : s.head?.any isSstWhitespace = false) :
    ∀ x, (excelControlEscape (escapeXmlEscapes s)).head? = some x → isWs x = false := by
  cases s with
  | nil => simp [escapeXmlEscapes, excelControlEscape]
  | cons c r =>
    simp at h
    intro x hx
    by_cases hc : c = '_'
    · subst hc
      obtain ⟨t, ht⟩ := escE_underscore_head r
      rw [ht, excel_cons, isControl_underscore] at hx
      simp at hx; subst hx; decide
    · rw [escE_cons_ne c r hc, excel_cons] at hx
      apply ctl_head_not_ws c h x
      rwa [head?_append_ne _ _ (ctl_ne_nil c)] at hx

theorem CE_last_not_ws (s : Str) (h : s.getLast?.any isSstWhitespace = false) :
    ∀ x, (excelControlEscape (escapeXmlEscapes s)).getLast? = some x → isWs x = false := by
  have e := escE_getLast s
  rcases List.eq_nil_or_concat (escapeXmlEscapes s) with h0 | ⟨l, c, hl⟩
  · rw [h0]; simp [excelControlEscape]
  · rw [List.concat_eq_append] at hl
    rw [hl] at e ⊢
    simp at e
    rw [← e] at h
    simp at h
    intro x hx
    have : excelControlEscape (l ++ [c]) = excelControlEscape l ++
        (if isControl c then excelEscapeOf c else [c]) := by simp [excelControlEscape]
    rw [this, getLast?_append_ne _ _ (ctl_ne_nil c)] at hx
    exact ctl_last_not_ws c h x hx

theorem escE_all (p : Char → Bool) (s : Str) (h : s.all p = true)
    (h' : "_x005F".toList.all p = true) : (escapeXmlEscapes s).all p = true := by
  fun_induction escapeXmlEscapes s with
  | case1 a b c d e rest hx ih =>
    rw [List.all_cons, Bool.and_eq_true] at h
    rw [List.all_append, h', List.all_cons, h.1, ih h.2]; rfl
  | case2 a b c d e rest hx ih =>
    rw [List.all_cons, Bool.and_eq_true] at h ⊢
    exact ⟨h.1, ih h.2⟩
  | case3 c rest hne ih =>
    rw [List.all_cons, Bool.and_eq_true] at h ⊢
    exact ⟨h.1, ih h.2⟩
  | case4 => rfl

/-- The attributes of the `<t>` element. -/
def siAttrs (preserve : Bool) : Attrs :=
  if preserve then [("xml:space".toList, "preserve".toList)] else []

/-- The `<si>` element as a writer tree. -/
def siTree (s : Str) (preserve : Bool) : Tree :=
  .node "si".toList [] [.data "t".toList (escapeXmlEscapes s) (siAttrs preserve)]

theorem xmlSiElement_eq (s : Str) (preserve : Bool) :
    xmlSiElement s preserve = writeCalls (siTree s preserve).calls := by
  cases preserve <;>
  simp [xmlSiElement, siTree, siAttrs, Tree.calls, callsList, writeCalls, Call.write, xmlStartTag,
    writeAttributes, writeAttribute, xmlDataElement, xmlEndTag, escapeAttributes,
    escapeString, matchAttributeHtmlChar, attributeCharTable, List.lookup, List.findIdx?,
    List.findIdx?.go]

theorem siTree_ok (s : Str) (p : Bool) (h : s.all (fun c => !isNonChar c) = true) :
    treeOk (siTree s p) = true := by
  have := escE_all (fun c => !isNonChar c) s h (by decide)
  simp only [siTree, treeOk, treesOk, this, Bool.and_true]
  cases p <;> decide

theorem si_string (s : Str)
    (p : Bool) (hp : p = false → s.head?.any isSstWhitespace = false ∧
      s.getLast?.any isSstWhitespace = false) :
    stringOfSi (siTree s p).toNode = some s := by
  have ht : textOnly (if escapeXmlEscapes s = [] then []
      else [Node.text (excelControlEscape (escapeXmlEscapes s))]) =
      some (excelControlEscape (escapeXmlEscapes s)) := by
    split
    · rename_i h; rw [h]; rfl
    · simp [textOnly]
  simp only [siTree, Tree.toNode, toNodes, stringOfSi, decide_true, Bool.and_self, if_true, ht,
    Option.map_some, textOfT]
  congr 1
  cases p with
  | true =>
    rw [if_pos (by decide)]
    exact unescape_escape s
  | false =>
    obtain ⟨h1, h2⟩ := hp rfl
    rw [if_neg (by decide), trimWs_id _ (CE_head_not_ws s h1) (CE_last_not_ws s h2)]
    exact unescape_escape s

end Verif
