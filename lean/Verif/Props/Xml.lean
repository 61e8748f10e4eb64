import Verif.Lemmas.SstText
/-!
C05, C06, C07: text, attributes and element structure survive being written as XML.
-/
namespace Verif
open Spec

/-! ## C07 -/

/-- C07: every part written through the writer API as a properly nested tree of elements is
read back by an XML reader as exactly that tree (texts with control characters come back in
Excel's `_xHHHH_` notation; `toNode` and `treeOk` are in `Spec/XmlTree.lean`). -/
theorem C07_part_roundtrip (root : Tree) (h : treeOk root = true) :
    parseDoc (writePart root) = some root.toNode := by
  have hp := parseContent_tree root h
  have hlt : ∃ r, writeCalls root.calls = '<' :: r := by
    cases root <;> simp [Tree.calls, writeCalls, Call.write, xmlStartTag, xmlEmptyTag,
      xmlDataElement]
  have hskip : skipDeclaration (writePart root) = writeCalls root.calls := by
    obtain ⟨r, hr⟩ := hlt
    unfold writePart
    rw [hr]; rfl
  unfold parseDoc
  rw [hskip, hp]
  cases root <;> simp [Tree.toNode]

/-- C07: siblings written one after the other are read back as those siblings. -/
theorem C07_content_roundtrip (ks : List Tree) (h : treesOk ks = true) :
    parseContent (writeCalls (callsList ks)) = some (toNodes ks) := parseContent_trees ks h

/-- C07: an end tag that does not match the open start tag is never accepted: the reader
detects every badly nested sequence of writer calls (the converse direction). -/
theorem C07_crossed_tags_rejected (a b : Str) (ha : isName a = true) (hb : isName b = true)
    (hab : a ≠ b) :
    parseContent (writeCalls [.start a [], .start b [], .close a, .close b]) = none := by
  rw [parseContent_writeCalls _ (by simp [callOk, ha, hb])]
  simp [callsToks, callToks, build, hab]

example : treeOk (.node "worksheet".toList [("xmlns:r".toList, "a&b\"<>\n".toList)]
    [.empty "c".toList [], .data "t".toList "x\x01<&".toList []]) = true := by decide

/-! ## C06 -/

/-- C06: whatever the attribute values are (any characters at all), the written value contains
no quote and no angle bracket, so it cannot end the attribute or the tag. -/
theorem C06_attribute_contained (v : Str) :
    '"' ∉ escapeAttributes v ∧ '<' ∉ escapeAttributes v ∧ '>' ∉ escapeAttributes v := by
  have key : ∀ x ∈ ['"', '<', '>'], x ∉ escapeAttributes v := by
    intro x hx hm
    rw [escapeAttributes_eq] at hm
    obtain ⟨c, _, hc⟩ := List.mem_flatMap.mp hm
    rcases lookup_cases attributeCharTable c with ⟨e, h1, h2⟩ | ⟨h1, h2⟩
    · have he : escA c = e := by simp [escA, matchAttributeHtmlChar, h1]
      rw [he] at hc
      have : ∀ p ∈ attributeCharTable, ∀ x ∈ ['"', '<', '>'], x ∉ p.2 := by decide
      exact this _ h2 x hx hc
    · have he : escA c = [c] := by simp [escA, matchAttributeHtmlChar, h1]
      rw [he] at hc; simp at hc; subst hc
      have : ∀ x ∈ ['"', '<', '>'], x ∈ attributeCharTable.map Prod.fst := by decide
      exact h2 x (this x hx) rfl
  exact ⟨key _ (by simp), key _ (by simp), key _ (by simp)⟩

/-- C06: an XML reader recovers all attribute names and values (values without tab, carriage
return, other control characters or U+FFFE/U+FFFF). -/
theorem C06_attributes_roundtrip (tag : Str) (as : Attrs) (ht : isName tag = true)
    (hn : ∀ a ∈ as, isName a.1 = true) (hd : (as.map Prod.fst).Nodup)
    (hv : ∀ a ∈ as, attrSafe a.2 = true) :
    parseContent (xmlEmptyTag tag as) = some [.elem tag as []] := by
  have ha : as.all attrOk = true := by
    rw [List.all_eq_true]; intro a h; simp [attrOk, hn a h, hv a h]
  have := parseContent_tree (.empty tag as) (by simp [treeOk, ht, ha, hd])
  simpa [Tree.calls, writeCalls, Call.write, Tree.toNode] using this

example : ∀ a ∈ [("name".toList, "A & B's \"x\"\n<é>".toList)],
    isName a.1 = true ∧ attrSafe a.2 = true := by decide

/-- C06: the exclusion is necessary: a tab in an attribute value is read back as a space. -/
theorem C06_tab_counterexample :
    decode true none (escapeAttributes ['a', '\t', 'b']) = some ['a', ' ', 'b'] := by decide

/-! ## C05 -/

/-- C05 (partial: strings that look like rich text, i.e. start with `<r>` and end with `</r>`,
and strings with the non-characters U+FFFE/U+FFFF are excluded, see the counterexamples):
the entry written to the shared string part parses as one `<si>` element whose text, after
undoing white space handling and `_xHHHH_` escapes, is the original string. -/
theorem C05_cell_text_roundtrip_partial (s : Str)
    (hrich : ¬ ("<r>".toList <+: s ∧ "</r>".toList <:+ s))
    (hchar : ∀ c ∈ s, c.toNat ≠ 0xFFFE ∧ c.toNat ≠ 0xFFFF) :
    ∃ si, parseContent (writeSstString s) = some [si] ∧ stringOfSi si = some s := by
  have hc : s.all (fun c => !isNonChar c) = true := by
    rw [List.all_eq_true]; intro c h
    simp [isNonChar, (hchar c h).1, (hchar c h).2]
  have hb : (startsWith "<r>".toList s && endsWith "</r>".toList s) = false := by
    cases hh : (startsWith "<r>".toList s && endsWith "</r>".toList s) with
    | false => rfl
    | true =>
      simp only [startsWith, endsWith, Bool.and_eq_true, List.isPrefixOf_iff_prefix,
        List.isSuffixOf_iff_suffix] at hh
      exact absurd hh hrich
  unfold writeSstString
  simp only [hb, Bool.false_eq_true, if_false]
  rw [xmlSiElement_eq, parseContent_tree _ (siTree_ok s _ hc)]
  refine ⟨_, rfl, si_string s _ ?_⟩
  intro hp
  simpa using hp

example : ¬ ("<r>".toList <+: "<r>_x0041_ \x01".toList ∧ "</r>".toList <:+ "<r>_x0041_ \x01".toList) := by
  decide

/-- C05 is false without the first exclusion: a cell string that looks like rich text is
written as markup (finding F1; /repo/src/shared_strings.rs:78-80). -/
theorem C05_rich_lookalike_counterexample :
    writeSstString "<r></r>".toList = "<si><r></r></si>".toList ∧
    (∀ si, parseContent (writeSstString "<r></r>".toList) = some [si] →
      stringOfSi si = none) ∧
    parseContent (writeSstString "<r>&</r>".toList) = none := by
  refine ⟨by decide, ?_, by decide⟩
  have : parseContent (writeSstString "<r></r>".toList) =
      some [.elem "si".toList [] [.elem "r".toList [] []]] := by rfl
  intro si h
  rw [this] at h
  cases h
  decide

/-- C05 is false without the second exclusion: U+FFFF is written raw, which is not XML
(finding F48). -/
theorem C05_nonchar_counterexample :
    parseContent (writeSstString [Char.ofNat 0xFFFF]) = none := by
  have e : escapeXmlEscapes [Char.ofNat 0xFFFF] = [Char.ofNat 0xFFFF] := by
    simp [escapeXmlEscapes]
  have h : writeSstString [Char.ofNat 0xFFFF] =
      "<si><t>".toList ++ escapeXmlData (escapeXmlEscapes [Char.ofNat 0xFFFF]) ++
        "</t></si>".toList := rfl
  rw [h, e]; decide

end Verif
