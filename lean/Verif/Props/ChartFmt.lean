import Verif.Spec.ChartFmt
import Verif.Props.DrawText
import Verif.Props.DocProps
import Verif.Props.ChartDoc
import Verif.Props.PageSetup
/-!
Formats, fonts, layouts and titles of charts can be written and read back.
-/
namespace Verif
open Spec

/-! ### Values -/

theorem valText_ok {t v : Str} (ht : isName t = true) (hv : attrSafe v = true) : treeOk (valText t v) = true :=
  treeOk_empty ht (attrsGood_one (by decide +kernel) hv)

theorem cVal_secs {secs : List (Str × List Tree)} (h : SecsOk secs) (hn : (secs.map Prod.fst).Nodup) (t : Text) :
    cVal t (toNodes (secTrees secs)) = (((secs.lookup t).bind List.head?).map treeParts).bind fun e => e.1.lookup "val".toList := by
  unfold cVal secTrees
  rw [secs_child h hn]

theorem cVal_none {t : Text} {ks : List Node} (h : child t ks = none) : cVal t ks = none := by
  unfold cVal; rw [h]; rfl

/-! ### Lines -/

theorem maybe_some {ks : List Node} {f : FillSeen2} (h : readFill2 ks = some f) : readMaybeFill ks = some (some f) := by
  have hs : (child "a:noFill".toList ks).isSome ∨ (child "a:solidFill".toList ks).isSome ∨ (child "a:pattFill".toList ks).isSome ∨
      (child "a:gradFill".toList ks).isSome := by
    unfold readFill2 at h
    cases h1 : child "a:noFill".toList ks with
    | some _ => exact Or.inl rfl
    | none =>
      rw [h1] at h
      cases h2 : child "a:solidFill".toList ks with
      | some _ => exact Or.inr (Or.inl rfl)
      | none =>
        rw [h2] at h
        cases h3 : child "a:pattFill".toList ks with
        | some _ => exact Or.inr (Or.inr (Or.inl rfl))
        | none =>
          rw [h3] at h
          cases h4 : child "a:gradFill".toList ks with
          | some _ => exact Or.inr (Or.inr (Or.inr rfl))
          | none => rw [h4] at h; cases h
  unfold readMaybeFill
  rw [if_pos hs, h]; rfl

theorem maybe_none {ks : List Node} (h1 : child "a:noFill".toList ks = none) (h2 : child "a:solidFill".toList ks = none)
    (h3 : child "a:pattFill".toList ks = none) (h4 : child "a:gradFill".toList ks = none) : readMaybeFill ks = some none := by
  unfold readMaybeFill
  rw [h1, h2, h3, h4, if_neg (by decide)]

theorem cLine_kids_ok {l : CLine} (h : l.color.isValid = true) : ∀ k ∈ l.kids, treeOk k = true := by
  unfold CLine.kids
  split
  · exact ok_single (by decide +kernel)
  · refine ok_append ?_ ?_
    · split
      · exact ok_single (solidTree_ok h _)
      · exact ok_nil
    · split
      · refine ok_single (valText_ok (by decide +kernel) ?_)
        cases l.dash <;> decide +kernel
      · exact ok_nil

theorem cLine_attrs_good (l : CLine) : attrsGood l.attrs := by
  unfold CLine.attrs
  cases l.width with
  | none => exact attrsGood_nil
  | some w => exact attrsGood_one (by decide +kernel) (showNat_attrSafe _)

theorem cLine_ok {l : CLine} (h : l.color.isValid = true) : treeOk l.tree = true := by
  unfold CLine.tree
  split
  · exact treeOk_node (by decide +kernel) (cLine_attrs_good l) (cLine_kids_ok h)
  · exact treeOk_empty (by decide +kernel) (cLine_attrs_good l)

theorem cLine_tag (l : CLine) : treeTag l.tree = "a:ln".toList := by
  unfold CLine.tree
  split <;> rfl

theorem cLine_parts (l : CLine) : treeParts l.tree = (l.attrs, toNodes l.kids) := by
  unfold CLine.tree
  split
  · rfl
  · rename_i h
    have h1 : l.color = .default := Classical.byContradiction fun e => h (Or.inl e)
    have h2 : l.dash = .solid := Classical.byContradiction fun e => h (Or.inr (Or.inl e))
    have h3 : l.hidden = false := by
      cases e : l.hidden
      · rfl
      · exact absurd (Or.inr (Or.inr e)) h
    unfold CLine.kids
    rw [h1, h2, h3]; rfl

theorem cLine_fill {l : CLine} (h : l.color.isValid = true) :
    readMaybeFill (toNodes l.kids) =
      some (if l.hidden then some .none else if l.color = .default then none else some (.solid (drawColour l.color l.transparency))) := by
  unfold CLine.kids
  by_cases hh : l.hidden = true
  · rw [if_pos hh, if_pos hh]
    exact maybe_some (read_noFill [])
  · rw [if_neg hh, if_neg hh]
    by_cases hc : l.color = .default
    · rw [if_neg (fun e => e hc), if_pos hc, List.nil_append]
      exact maybe_none (dash_child _ _ _ (by decide)) (dash_child _ _ _ (by decide)) (dash_child _ _ _ (by decide))
        (dash_child _ _ _ (by decide))
    · rw [if_pos hc, if_neg hc]
      refine maybe_some ?_
      show readFill2 (toNodes (.node "a:solidFill".toList [] (colorTrees l.color l.transparency) ::
        (if l.dash ≠ .solid then [.empty "a:prstDash".toList [("val".toList, l.dash.text)]] else []))) = _
      rw [read_solid _ _ (dash_child _ _ _ (by decide)), read_colour h]; rfl

theorem cLine_dash (l : CLine) (hh : l.hidden = false) :
    (cVal "a:prstDash".toList (toNodes l.kids)).getD "solid".toList = dashName l.dash := by
  unfold cVal CLine.kids
  rw [if_neg (by rw [hh]; decide)]
  have e : child "a:prstDash".toList (toNodes ((if l.color ≠ .default then [solidTree l.color l.transparency] else []) ++
      (if l.dash ≠ .solid then [valText "a:prstDash".toList l.dash.text] else []))) =
      child "a:prstDash".toList (toNodes (if l.dash ≠ .solid then [valText "a:prstDash".toList l.dash.text] else [])) := by
    split
    · exact child_skip (solidTree l.color l.transparency) _ (by show "a:solidFill".toList ≠ _; decide)
    · rfl
  rw [e]
  by_cases hd : l.dash = .solid
  · rw [if_neg (fun h => h hd), hd]; rfl
  · rw [if_pos hd, ← dash_text]; rfl

theorem cLine_read {l : CLine} (h : l.color.isValid = true) : ∃ k, readLineLook (treeParts l.tree) = some k ∧ LineMeant l k := by
  have hw : attrNat? "w".toList l.attrs = some (l.width.map lineEmus) := by
    unfold attrNat? CLine.attrs
    cases l.width with
    | none => rfl
    | some w =>
      dsimp only
      rw [look_eq]
      dsimp only
      rw [readNat_showNat]; rfl
  rw [cLine_parts]
  unfold readLineLook
  dsimp only
  rw [hw, cLine_fill h]
  refine ⟨_, rfl, ?_, rfl, fun hh => cLine_dash l hh⟩
  cases l.width with
  | none => rfl
  | some w => exact ⟨_, rfl, lineEmus_nearest w⟩

/-! ### Formats -/

/-- The parts of `cFormatOk`. -/
theorem cFormatOk_parts {f : CFormat} (h : cFormatOk f = true) :
    (∀ l, f.line = some l → l.color.isValid = true) ∧ formatOk { solid := f.solid, pattern := f.pattern, gradient := f.gradient } = true := by
  unfold cFormatOk at h
  rw [Bool.and_eq_true] at h
  refine ⟨fun l e => ?_, h.2⟩
  have h1 := h.1
  rw [e] at h1
  dsimp only at h1
  rw [Bool.and_eq_true] at h1; exact h1.1

theorem cFill_ok {f : CFormat} (h : cFormatOk f = true) : ∀ k ∈ f.fillTrees, treeOk k = true := by
  obtain ⟨_, h2, h3, h4⟩ := formatOk_parts (cFormatOk_parts h).2
  unfold CFormat.fillTrees
  split
  · exact ok_single (by decide +kernel)
  · split
    · rename_i s e; exact ok_single (solidTree_ok (h2 s e) _)
    · split
      · rename_i p e; exact ok_single (pattern_kids_ok (h3 p e).1 (h3 p e).2.1 (h3 p e).2.2)
      · split
        · rename_i g e; exact ok_single (gradientTree_ok (h4 g e).1)
        · exact ok_nil

theorem cLines_ok {f : CFormat} (h : cFormatOk f = true) : ∀ k ∈ f.lineTrees, treeOk k = true := by
  unfold CFormat.lineTrees
  split
  · exact ok_single (by decide +kernel)
  · split
    · rename_i l e; exact ok_single (cLine_ok ((cFormatOk_parts h).1 l e))
    · exact ok_nil

theorem cFormat_ok {f : CFormat} (h : cFormatOk f = true) : ∀ k ∈ f.trees, treeOk k = true ∧ treeTag k = "c:spPr".toList := by
  unfold CFormat.trees
  exact if_ok (treeOk_node (by decide +kernel) attrsGood_nil (ok_append (cFill_ok h) (cLines_ok h))) rfl

theorem lineTrees_none (f : CFormat) {t : Text} (ht : "a:ln".toList ≠ t) : child t (toNodes f.lineTrees) = none := by
  unfold CFormat.lineTrees
  split
  · exact child_skip (.node "a:ln".toList _ _) _ ht
  · split
    · rename_i l _
      exact child_skip l.tree _ (by rw [cLine_tag]; exact ht)
    · rfl

theorem cFill_read {f : CFormat} (h : cFormatOk f = true) :
    readMaybeFill (toNodes (f.fillTrees ++ f.lineTrees)) = some (chartFillAsked f) := by
  obtain ⟨_, h2, h3, h4⟩ := formatOk_parts (cFormatOk_parts h).2
  have n1 := lineTrees_none f (t := "a:noFill".toList) (by decide)
  have n2 := lineTrees_none f (t := "a:solidFill".toList) (by decide)
  have n3 := lineTrees_none f (t := "a:pattFill".toList) (by decide)
  have n4 := lineTrees_none f (t := "a:gradFill".toList) (by decide)
  revert n1 n2 n3 n4
  generalize f.lineTrees = r
  intro n1 n2 n3 n4
  obtain ⟨nf, nl, li, so, pa, gr⟩ := f
  unfold CFormat.fillTrees chartFillAsked
  dsimp only at h2 h3 h4 ⊢
  cases nf with
  | true => exact maybe_some (read_noFill r)
  | false =>
    rw [if_neg (by decide), if_neg (by decide)]
    cases so with
    | some s =>
      refine maybe_some ?_
      show readFill2 (toNodes (solidTree s.color s.transparency :: r)) = _
      unfold solidTree
      rw [read_solid _ _ n1, read_colour (h2 s rfl)]; rfl
    | none =>
      cases pa with
      | some p => exact maybe_some (read_pattern (h3 p rfl).1 (h3 p rfl).2.1 r n1 n2)
      | none =>
        cases gr with
        | some g => exact maybe_some (read_gradient (h4 g rfl).1 (h4 g rfl).2 r n1 n2 n3)
        | none => exact maybe_none n1 n2 n3 n4

theorem fillTrees_line (f : CFormat) (r : List Tree) :
    child "a:ln".toList (toNodes (f.fillTrees ++ r)) = child "a:ln".toList (toNodes r) := by
  unfold CFormat.fillTrees
  split
  · exact child_skip (.empty "a:noFill".toList _) _ (by decide : "a:noFill".toList ≠ _)
  · split
    · rename_i s _
      exact child_skip (solidTree s.color s.transparency) _ (by show "a:solidFill".toList ≠ _; decide)
    · split
      · rename_i p _
        exact child_skip (patternTree p) _ (by show "a:pattFill".toList ≠ _; decide)
      · split
        · rename_i g _
          exact child_skip (gradientTree g) _ (by show "a:gradFill".toList ≠ _; decide)
        · rfl

/-- A format reads back. -/
theorem cFormat_read {f : CFormat} (h : cFormatOk f = true) :
    ∃ k, ((f.trees.head?).map treeParts).elim (some {}) readFormat = some k ∧ FormatMeant f k := by
  have hl : ∃ x, optChild readLineLook "a:ln".toList (toNodes (f.fillTrees ++ f.lineTrees)) = some x ∧
      (if f.noLine then x = some ⟨none, some .none, "solid".toList⟩
       else match f.line with
         | none => x = none
         | some l => ∃ k, x = some k ∧ LineMeant l k) := by
    unfold optChild
    rw [fillTrees_line]
    unfold CFormat.lineTrees
    by_cases hn : f.noLine = true
    · rw [if_pos hn, child_head (t := "a:ln".toList) _ _ rfl]
      simp only [if_pos hn]
      exact ⟨_, by rfl, rfl⟩
    · rw [if_neg hn]
      simp only [if_neg hn]
      cases e : f.line with
      | none => exact ⟨none, rfl, rfl⟩
      | some l =>
        dsimp only
        rw [child_head (t := "a:ln".toList) _ _ (cLine_tag l)]
        obtain ⟨k, hk, hm⟩ := cLine_read ((cFormatOk_parts h).1 l e)
        dsimp only
        rw [hk]
        exact ⟨_, rfl, k, rfl, hm⟩
  obtain ⟨x, hx, hm⟩ := hl
  unfold CFormat.trees
  by_cases hf : f.hasFormatting = true
  · rw [if_pos hf]
    refine ⟨⟨chartFillAsked f, x⟩, ?_, rfl, hm⟩
    show readFormat ([], toNodes (f.fillTrees ++ f.lineTrees)) = _
    unfold readFormat
    dsimp only
    rw [cFill_read h, hx]
  · rw [if_neg hf]
    refine ⟨{}, rfl, ?_, ?_⟩
    · obtain ⟨nf, nl, li, so, pa, gr⟩ := f
      simp only [CFormat.hasFormatting, Bool.or_eq_true, not_or, Bool.not_eq_true, Option.isSome_eq_false_iff,
        Option.isNone_iff_eq_none] at hf
      obtain ⟨⟨⟨⟨⟨a, b⟩, c⟩, d⟩, e⟩, g⟩ := hf
      subst a; subst b; subst c; subst d; subst e; subst g
      rfl
    · obtain ⟨nf, nl, li, so, pa, gr⟩ := f
      simp only [CFormat.hasFormatting, Bool.or_eq_true, not_or, Bool.not_eq_true, Option.isSome_eq_false_iff,
        Option.isNone_iff_eq_none] at hf
      obtain ⟨⟨⟨⟨⟨a, b⟩, c⟩, d⟩, e⟩, g⟩ := hf
      subst a; subst b; subst c; subst d; subst e; subst g
      rfl

/-- A format among the elements of sections. -/
theorem cFormat_in {secs : List (Str × List Tree)} (hs : SecsOk secs) (hn : (secs.map Prod.fst).Nodup) {f : CFormat}
    (hl : secs.lookup "c:spPr".toList = some f.trees) (h : cFormatOk f = true) :
    ∃ k, readFormatIn (toNodes (secTrees secs)) = some k ∧ FormatMeant f k := by
  obtain ⟨k, hk, hm⟩ := cFormat_read h
  refine ⟨k, ?_, hm⟩
  unfold readFormatIn optChild secTrees
  rw [secs_child hs hn, hl, Option.bind_some]
  cases e : f.trees.head? with
  | none => rw [e] at hk; exact hk
  | some x =>
    rw [e] at hk
    show Option.map _ (Option.map some (readFormat (treeParts x))) = _
    have hk' : readFormat (treeParts x) = some k := hk
    rw [hk']; rfl

/-! ### Fonts -/

theorem onOff_safe (b : Bool) : attrSafe (onOff b) = true := by cases b <;> decide

theorem onOff_read (b : Bool) : (onOff b == "1".toList) = b := by cases b <;> decide

theorem cFont_attrs (f : CFont) (run : Bool) : f.attrs run =
    (if run = true then [("lang".toList, "en-US".toList)] else []) ++
    ((if f.size > 0 then [("sz".toList, showNat f.size)] else []) ++
     ((if f.bold.isSome = true then [("b".toList, onOff (f.bold.getD false))] else []) ++
      ((if (f.italic || (f.bold.isSome && !f.hasDefaultBold)) = true then [("i".toList, onOff f.italic)] else []) ++
       ((if f.underline = true then [("u".toList, "sng".toList)] else []) ++
        (if f.hasBaseline = true then [("baseline".toList, "0".toList)] else []))))) := by
  obtain ⟨b, _⟩ := f
  cases b <;> rfl

theorem cFont_attrs_good (f : CFont) (run : Bool) : attrsGood (f.attrs run) := by
  rw [cFont_attrs]
  refine pIf_good (by decide +kernel) (by decide +kernel) ?_ (pIf_good (by decide +kernel) (showNat_attrSafe _) ?_
    (pIf_good (by decide +kernel) (onOff_safe _) ?_ (pIf_good (by decide +kernel) (onOff_safe _) ?_
      (pIf_good (by decide +kernel) (by decide +kernel) ?_ (pIf_good' (by decide +kernel) (by decide +kernel))))))
  · exact pIf_names (by decide) (pIf_names (by decide) (pIf_names (by decide) (pIf_names (by decide) (pIf_names' (by decide)))))
  · exact pIf_names (by decide) (pIf_names (by decide) (pIf_names (by decide) (pIf_names' (by decide))))
  · exact pIf_names (by decide) (pIf_names (by decide) (pIf_names' (by decide)))
  · exact pIf_names (by decide) (pIf_names' (by decide))
  · exact pIf_names' (by decide)

theorem cLatin_good {f : CFont} (h : attrSafe f.name = true) : attrsGood f.latinAttrs := by
  unfold CFont.latinAttrs
  refine pIf_good (by decide +kernel) h ?_ (pIf_good (by decide +kernel) (showNat_attrSafe _) ?_
    (pIf_good' (by decide +kernel) (showNat_attrSafe _)))
  · exact pIf_names (by decide) (pIf_names' (by decide))
  · exact pIf_names' (by decide)

/-- What is written in a font element. -/
def CFont.kids (f : CFont) : List Tree :=
  (if f.color.isAutoOrDefault then [] else [solidTree f.color 0]) ++
    (if f.isLatin then [.empty "a:latin".toList f.latinAttrs] else [])

theorem cFont_parts (f : CFont) (run : Bool) : treeParts (f.tree run) = (f.attrs run, toNodes f.kids) := by
  unfold CFont.tree CFont.kids
  dsimp only
  by_cases h : (f.isLatin || !f.color.isAutoOrDefault) = true
  · rw [if_pos h]; rfl
  · rw [if_neg h]
    have h1 : f.isLatin = false := by cases e : f.isLatin <;> simp_all
    have h2 : f.color.isAutoOrDefault = true := by cases e : f.color.isAutoOrDefault <;> simp_all
    rw [h1, h2]; rfl

theorem cFont_tag (f : CFont) (run : Bool) : treeTag (f.tree run) = if run then "a:rPr".toList else "a:defRPr".toList := by
  unfold CFont.tree
  dsimp only
  by_cases h : (f.isLatin || !f.color.isAutoOrDefault) = true
  · rw [if_pos h]; rfl
  · rw [if_neg h]; rfl

theorem cFont_ok {f : CFont} (run : Bool) (hc : f.color.isValid = true) (hn : attrSafe f.name = true) :
    treeOk (f.tree run) = true := by
  have ht : isName (if run then "a:rPr".toList else "a:defRPr".toList) = true := by cases run <;> decide +kernel
  unfold CFont.tree
  dsimp only
  by_cases h : (f.isLatin || !f.color.isAutoOrDefault) = true
  · rw [if_pos h]
    refine treeOk_node ht (cFont_attrs_good f run) (ok_append ?_ ?_)
    · split
      · exact ok_nil
      · exact ok_single (solidTree_ok hc 0)
    · split
      · exact ok_single (treeOk_empty (by decide +kernel) (cLatin_good hn))
      · exact ok_nil
  · rw [if_neg h]
    exact treeOk_empty ht (cFont_attrs_good f run)

theorem cFont_solid (f : CFont) (hc : f.color.isValid = true) :
    readColourChild "a:solidFill".toList (toNodes f.kids) =
      some (if f.color.isAutoOrDefault then none else some (drawColour f.color 0)) := by
  unfold readColourChild CFont.kids
  by_cases h : f.color.isAutoOrDefault = true
  · rw [if_pos h, if_pos h, List.nil_append]
    cases f.isLatin <;> rfl
  · rw [if_neg h, if_neg h, List.singleton_append, child_head (t := "a:solidFill".toList) _ _ rfl]
    show (readDrawColour (toNodes (colorTrees f.color 0))).map some = _
    rw [read_colour hc]; rfl

theorem cFont_latin (f : CFont) : attrsOf "a:latin".toList (toNodes f.kids) = if f.isLatin then f.latinAttrs else [] := by
  have e : ∀ b : Bool, attrsOf "a:latin".toList (toNodes (if b then [.empty "a:latin".toList f.latinAttrs] else [])) =
      if b then f.latinAttrs else [] := by
    intro b
    cases b
    · rfl
    · unfold attrsOf
      rw [if_pos rfl, child_head (t := "a:latin".toList) _ _ rfl]; rfl
  unfold CFont.kids
  by_cases h : f.color.isAutoOrDefault = true
  · rw [if_pos h, List.nil_append]; exact e _
  · rw [if_neg h, List.singleton_append]
    rw [← e f.isLatin]
    unfold attrsOf
    rw [child_skip (solidTree f.color 0) _ (by show "a:solidFill".toList ≠ _; decide)]

theorem cLatin_face (f : CFont) : ((if f.isLatin then f.latinAttrs else []).lookup "typeface".toList).getD [] = f.name := by
  cases h : f.isLatin with
  | true =>
    rw [if_pos rfl]
    unfold CFont.latinAttrs
    rw [pIf_eq]
    split
    · rfl
    · rename_i hn
      rw [pIf_ne (by decide), pIf_ne' (by decide)]
      have : f.name = [] := Classical.byContradiction hn
      rw [this]; rfl
  | false =>
    simp only [CFont.isLatin, Bool.or_eq_false_iff, decide_eq_false_iff_not] at h
    have : f.name = [] := by
      have := h.1.1
      simpa using this
    rw [this]; rfl

theorem cLatin_pitch (f : CFont) : attrNatD "pitchFamily".toList 0 (if f.isLatin then f.latinAttrs else []) =
    some f.pitchFamily := by
  unfold attrNatD
  cases h : f.isLatin with
  | true =>
    rw [if_pos rfl]
    unfold CFont.latinAttrs
    rw [pIf_ne (by decide), pIf_eq]
    by_cases hp : f.pitchFamily > 0
    · rw [if_pos hp]
      dsimp only
      rw [readNat_showNat]
    · rw [if_neg hp, pIf_ne' (by decide)]
      have : f.pitchFamily = 0 := by omega
      rw [this]
  | false =>
    simp only [CFont.isLatin, Bool.or_eq_false_iff, decide_eq_false_iff_not] at h
    have : f.pitchFamily = 0 := by omega
    rw [this]; rfl

theorem cLatin_charset (f : CFont) : attrNatD "charset".toList 0 (if f.isLatin then f.latinAttrs else []) =
    some f.characterSet := by
  unfold attrNatD
  cases h : f.isLatin with
  | true =>
    rw [if_pos rfl]
    unfold CFont.latinAttrs
    rw [pIf_ne (by decide), pIf_ne (by decide), pIf_eq']
    by_cases hp : f.characterSet > 0 ∨ f.pitchFamily > 0
    · rw [if_pos hp]
      dsimp only
      rw [readNat_showNat]
    · rw [if_neg hp]
      have : f.characterSet = 0 := by omega
      rw [this]
  | false =>
    simp only [CFont.isLatin, Bool.or_eq_false_iff, decide_eq_false_iff_not] at h
    have : f.characterSet = 0 := by omega
    rw [this]; rfl

/-- The font that is seen. -/
def fontSeen (f : CFont) : FontLook :=
  { size := if f.size = 0 then none else some f.size, bold := f.bold, italic := f.italic, underline := f.underline, strike := false
    colour := if f.color.isAutoOrDefault then none else some (drawColour f.color 0)
    face := f.name, pitch := f.pitchFamily, charset := f.characterSet }

theorem cFont_read {f : CFont} (run : Bool) (hc : f.color.isValid = true) :
    readFontLook (treeParts (f.tree run)) = some (fontSeen f) := by
  have hsz : attrNat? "sz".toList (f.attrs run) = some (if f.size = 0 then none else some f.size) := by
    unfold attrNat?
    rw [cFont_attrs, pIf_ne (by decide), pIf_eq, pIf_ne (by decide), pIf_ne (by decide), pIf_ne (by decide), pIf_ne' (by decide)]
    by_cases h : f.size > 0
    · rw [if_pos h, if_neg (by omega)]
      dsimp only
      rw [readNat_showNat]; rfl
    · rw [if_neg h, if_pos (by omega)]
  have hb : ((f.attrs run).lookup "b".toList).map (· == "1".toList) = f.bold := by
    rw [cFont_attrs, pIf_ne (by decide), pIf_ne (by decide), pIf_eq, pIf_ne (by decide), pIf_ne (by decide), pIf_ne' (by decide)]
    cases f.bold with
    | none => rfl
    | some b => cases b <;> decide
  have hi : ((f.attrs run).lookup "i".toList == some "1".toList) = f.italic := by
    rw [cFont_attrs, pIf_ne (by decide), pIf_ne (by decide), pIf_ne (by decide), pIf_eq, pIf_ne (by decide), pIf_ne' (by decide)]
    cases f.italic with
    | true => rw [Bool.true_or, if_pos rfl]; decide
    | false => split <;> decide
  have hu : ((f.attrs run).lookup "u".toList == some "sng".toList) = f.underline := by
    rw [cFont_attrs, pIf_ne (by decide), pIf_ne (by decide), pIf_ne (by decide), pIf_ne (by decide), pIf_eq, pIf_ne' (by decide)]
    exact flag_beq _ _
  have hs : ((f.attrs run).lookup "strike".toList == some "sngStrike".toList) = false := by
    rw [cFont_attrs, pIf_ne (by decide), pIf_ne (by decide), pIf_ne (by decide), pIf_ne (by decide), pIf_ne (by decide),
      pIf_ne' (by decide)]
    rfl
  rw [cFont_parts]
  unfold readFontLook
  dsimp only
  rw [hsz, cFont_solid f hc, cFont_latin, cLatin_pitch, cLatin_charset, hb, hi, hu, hs, cLatin_face]
  rfl

theorem showInt_safe (n : Int) : attrSafe (showInt n) = true := showI32_safe n

theorem read_showInt (n : Int) : readInt (showInt n) = some n := readInt_show n

theorem rotation_good (a : Int) : attrsGood (rotationAttrs a) := by
  unfold rotationAttrs
  split
  · exact attrsGood_nil
  · split
    · exact ⟨by decide +kernel, by decide +kernel⟩
    · split
      · exact ⟨by decide +kernel, by decide +kernel⟩
      · exact two_good (by decide +kernel) (by decide +kernel) (showInt_safe _) (by decide +kernel) (by decide +kernel)

theorem rotation_read {f : CFont} (horizontal : Bool) (h : ∀ r, f.rotation = some r → r ≠ 360) :
    readTurn (rotationAttrs (f.angle horizontal)) = some (turnMeant horizontal f) := by
  have key : ∀ a : Int, a ≠ 360 → readTurn (rotationAttrs a) =
      some (if a = 270 then some .stacked else if a = 271 then some .eastAsian else some (.angle (a * 60000))) := by
    intro a ha
    unfold rotationAttrs
    rw [if_neg ha]
    by_cases h1 : a = 270
    · rw [if_pos h1, if_pos h1]; decide +kernel
    · rw [if_neg h1, if_neg h1]
      by_cases h2 : a = 271
      · rw [if_pos h2, if_pos h2]; decide +kernel
      · rw [if_neg h2, if_neg h2]
        unfold readTurn
        rw [look_eq, look_ne (by decide), look_eq]
        dsimp only
        rw [Option.getD_some, if_neg (by decide), if_neg (by decide), if_pos rfl, read_showInt]
        rfl
  unfold CFont.angle turnMeant
  cases e : f.rotation with
  | some r =>
    dsimp only
    rw [key r (h r e)]
  | none =>
    cases horizontal with
    | true => decide +kernel
    | false => decide +kernel

/-- The parts of `cFontOk`. -/
theorem cFontOk_parts {f : CFont} (h : cFontOk f = true) :
    f.color.isValid = true ∧ attrSafe f.name = true ∧ f.strikethrough = false ∧ ∀ r, f.rotation = some r → r ≠ 360 := by
  unfold cFontOk at h
  simp only [Bool.and_eq_true, Bool.not_eq_true'] at h
  refine ⟨h.1.1.1, h.1.1.2, h.1.2, fun r e => ?_⟩
  have h4 := h.2
  rw [e] at h4
  simp only [Bool.or_eq_true, decide_eq_true_eq, beq_iff_eq] at h4
  omega

theorem para_ok {f : CFont} (h : cFontOk f = true) : treeOk f.paraTree = true := by
  obtain ⟨h1, h2, _⟩ := cFontOk_parts h
  unfold CFont.paraTree
  refine treeOk_node (by decide +kernel) ?_ (ok_single (cFont_ok false h1 h2))
  unfold CFont.rtlAttrs
  cases f.rightToLeft with
  | none => exact attrsGood_nil
  | some b => exact attrsGood_one (by decide +kernel) (onOff_safe b)

theorem cBody_ok (f : CFont) (b : Bool) : treeOk (f.bodyTree b) = true :=
  treeOk_empty (by decide +kernel) (rotation_good _)

theorem txPr_ok {f : CFont} (h : cFontOk f = true) (b : Bool) : treeOk (f.txPrTree b) = true :=
  treeOk_node (by decide +kernel) attrsGood_nil (ok_cons (cBody_ok f b) (ok_cons (by decide +kernel)
    (ok_single (treeOk_node (by decide +kernel) attrsGood_nil (ok_cons (para_ok h) (ok_single (by decide +kernel)))))))

/-- The text properties that are seen. -/
def textSeen (vertical : Bool) (f : CFont) : TextLook := ⟨turnMeant vertical f, fontSeen f, f.rightToLeft⟩

theorem rtl_read (f : CFont) : (f.rtlAttrs.lookup "rtl".toList).map (· == "1".toList) = f.rightToLeft := by
  unfold CFont.rtlAttrs
  cases f.rightToLeft with
  | none => rfl
  | some b => cases b <;> decide

theorem txPr_read {f : CFont} (h : cFontOk f = true) (b : Bool) :
    readTextLook (treeParts (f.txPrTree b)) = some (textSeen b f) := by
  obtain ⟨h1, h2, _, h4⟩ := cFontOk_parts h
  show readTextLook ([], toNodes [f.bodyTree b, .empty "a:lstStyle".toList [],
     .node "a:p".toList [] [f.paraTree, .empty "a:endParaRPr".toList [("lang".toList, "en-US".toList)]]]) = _
  unfold readTextLook attrsOf
  dsimp only
  rw [child_head (t := "a:bodyPr".toList) _ _ rfl, child_skip (f.bodyTree b) _ (by show "a:bodyPr".toList ≠ _; decide),
    child_skip (.empty "a:lstStyle".toList []) _ (by show "a:lstStyle".toList ≠ _; decide), child_head (t := "a:p".toList) _ _ rfl]
  show (match readTurn (rotationAttrs (f.angle b)), some (([], toNodes [f.paraTree, .empty "a:endParaRPr".toList [("lang".toList, "en-US".toList)]]) : NodeAttrs × List Node) with
    | some t, some p => (child "a:pPr".toList p.2).bind (readParaLook t)
    | _, _ => none) = _
  rw [rotation_read b h4]
  dsimp only
  rw [child_head (t := "a:pPr".toList) _ _ rfl, Option.bind_some]
  unfold readParaLook
  rw [show treeParts f.paraTree = (f.rtlAttrs, toNodes [f.tree false]) from rfl]
  dsimp only
  rw [child_head (t := "a:defRPr".toList) _ _ (cFont_tag f false), Option.bind_some, cFont_read false h1, Option.map_some, rtl_read]
  rfl

/-- What is seen of a font as an axis keeps it. -/
theorem text_axis (f : CFont) (h : f.strikethrough = false) : TextMeant false false f (textSeen false f.forAxis) := by
  refine ⟨rfl, ⟨rfl, ?_, rfl, rfl, h.symm, rfl, rfl, rfl, rfl⟩, rfl⟩
  show (if f.italic && f.bold.isNone then some false else f.bold).getD false = f.bold.getD false
  cases f.bold <;> cases f.italic <;> rfl

/-- What is seen of a font as a title keeps it. -/
theorem text_title (b : Bool) (f : CFont) (h : f.strikethrough = false) : TextMeant b true f (textSeen b f) :=
  ⟨rfl, ⟨rfl, rfl, rfl, rfl, h.symm, rfl, rfl, rfl, rfl⟩, rfl⟩

/-! ### Layouts -/

theorem optVal_ok {t : Str} (ht : isName t = true) {o : Option Str} (h : ∀ v, o = some v → attrSafe v = true) :
    ∀ x ∈ optVal t o, treeOk x = true ∧ treeTag x = t := by
  unfold optVal
  cases o with
  | none => intro x hx; cases hx
  | some v => exact one_ok (valText_ok ht (h v rfl)) rfl

theorem cLayoutOk_parts {l : CLayout} (h : cLayoutOk l = true) : (∀ v, l.x = some v → attrSafe v = true) ∧
    (∀ v, l.y = some v → attrSafe v = true) ∧ (∀ v, l.width = some v → attrSafe v = true) ∧
    (∀ v, l.height = some v → attrSafe v = true) := by
  unfold cLayoutOk at h
  simp only [List.all_cons, List.all_nil, Bool.and_true, Bool.and_eq_true] at h
  obtain ⟨h1, h2, h3, h4⟩ := h
  refine ⟨fun v e => ?_, fun v e => ?_, fun v e => ?_, fun v e => ?_⟩
  · rw [e] at h1; exact h1
  · rw [e] at h2; exact h2
  · rw [e] at h3; exact h3
  · rw [e] at h4; exact h4

theorem layout_secs {l : CLayout} (h : cLayoutOk l = true) : SecsOk l.secs := by
  obtain ⟨h1, h2, h3, h4⟩ := cLayoutOk_parts h
  unfold CLayout.secs
  refine secsOk_cons (if_ok (by decide +kernel) rfl) (secsOk_cons (one_ok (by decide +kernel) rfl) (secsOk_cons (one_ok (by decide +kernel) rfl)
    (secsOk_cons (optVal_ok (by decide +kernel) h1) (secsOk_cons (optVal_ok (by decide +kernel) h2) (secsOk_cons ?_ (secsOk_cons ?_ nofun))))))
  · intro x hx
    split at hx
    · exact optVal_ok (by decide +kernel) h3 x hx
    · cases hx
  · intro x hx
    split at hx
    · exact optVal_ok (by decide +kernel) h4 x hx
    · cases hx

theorem layout_nodup (l : CLayout) : (l.secs.map Prod.fst).Nodup := by
  show (["c:layoutTarget".toList, "c:xMode".toList, "c:yMode".toList, "c:x".toList, "c:y".toList, "c:w".toList, "c:h".toList] : List Str).Nodup
  decide +kernel

theorem ok_of_secs {secs : List (Str × List Tree)} (h : SecsOk secs) : ∀ k ∈ secTrees secs, treeOk k = true := by
  intro k hk
  obtain ⟨p, hp, hk⟩ := List.mem_flatMap.mp hk
  exact (h p hp k hk).1

theorem layout_ok {l : CLayout} (h : cLayoutOk l = true) : treeOk l.tree = true := by
  unfold CLayout.tree
  split
  · exact treeOk_node (by decide +kernel) attrsGood_nil (ok_single (treeOk_node (by decide +kernel) attrsGood_nil (ok_of_secs (layout_secs h))))
  · decide +kernel

theorem layout_tag (l : CLayout) : treeTag l.tree = "c:layout".toList := by
  unfold CLayout.tree
  split <;> rfl

theorem optVal_val (t : Str) (o : Option Str) :
    (((some (optVal t o)).bind List.head?).map treeParts).bind (fun e => e.1.lookup "val".toList) = o := by
  cases o with
  | none => rfl
  | some v =>
    show List.lookup "val".toList [("val".toList, v)] = some v
    exact look_eq _ _ _

/-- The layout that is seen. -/
def layoutSeen (l : CLayout) : Option LayoutLook :=
  if l.isSet then some ⟨l.x, l.y, if l.hasDimensions then l.width else none, if l.hasDimensions then l.height else none, l.hasInner⟩
  else none

theorem layout_read {l : CLayout} (h : cLayoutOk l = true) : readLayout (treeParts l.tree) = some (layoutSeen l) := by
  unfold CLayout.tree layoutSeen
  by_cases hs : l.isSet = true
  · rw [if_pos hs, if_pos hs]
    show readLayout ([], toNodes [.node "c:manualLayout".toList [] (secTrees l.secs)]) = _
    unfold readLayout
    dsimp only
    rw [child_head (t := "c:manualLayout".toList) _ _ rfl]
    rw [show treeParts (.node "c:manualLayout".toList [] (secTrees l.secs)) = ([], toNodes (secTrees l.secs)) from rfl]
    dsimp only
    have hl := layout_secs h
    have hn := layout_nodup l
    have e1 : cVal "c:xMode".toList (toNodes (secTrees l.secs)) = some "edge".toList := by rw [cVal_secs hl hn]; rfl
    have e2 : cVal "c:yMode".toList (toNodes (secTrees l.secs)) = some "edge".toList := by rw [cVal_secs hl hn]; rfl
    have e3 : cVal "c:x".toList (toNodes (secTrees l.secs)) = l.x := by
      rw [cVal_secs hl hn, show l.secs.lookup "c:x".toList = some (optVal "c:x".toList l.x) from by unfold CLayout.secs; sec_look, optVal_val]
    have e4 : cVal "c:y".toList (toNodes (secTrees l.secs)) = l.y := by
      rw [cVal_secs hl hn, show l.secs.lookup "c:y".toList = some (optVal "c:y".toList l.y) from by unfold CLayout.secs; sec_look, optVal_val]
    have e5 : cVal "c:w".toList (toNodes (secTrees l.secs)) = if l.hasDimensions then l.width else none := by
      rw [cVal_secs hl hn, show l.secs.lookup "c:w".toList = some (if l.hasDimensions then optVal "c:w".toList l.width else []) from by
        unfold CLayout.secs; sec_look]
      split
      · exact optVal_val _ _
      · rfl
    have e6 : cVal "c:h".toList (toNodes (secTrees l.secs)) = if l.hasDimensions then l.height else none := by
      rw [cVal_secs hl hn, show l.secs.lookup "c:h".toList = some (if l.hasDimensions then optVal "c:h".toList l.height else []) from by
        unfold CLayout.secs; sec_look]
      split
      · exact optVal_val _ _
      · rfl
    have e7 : (cVal "c:layoutTarget".toList (toNodes (secTrees l.secs)) == some "inner".toList) = l.hasInner := by
      rw [cVal_secs hl hn, show l.secs.lookup "c:layoutTarget".toList =
        some (if l.hasInner then [valText "c:layoutTarget".toList "inner".toList] else []) from by unfold CLayout.secs; sec_look]
      cases l.hasInner <;> decide
    rw [if_pos ⟨e1, e2⟩, e3, e4, e5, e6, e7]
  · rw [if_neg hs, if_neg hs]; rfl

/-! ### Titles -/

/-- A title whose texts can be written. -/
structure CTitle.Ok (t : CTitle) : Prop where
  name : plain t.name = true
  format : cFormatOk t.format = true
  font : cFontOk t.font = true
  layout : cLayoutOk t.layout = true

theorem rest_secs {t : CTitle} (h : t.Ok) : SecsOk t.restSecs := by
  unfold CTitle.restSecs
  exact secsOk_cons (one_ok (layout_ok h.layout) (layout_tag _)) (secsOk_cons (if_ok (by decide +kernel) rfl)
    (secsOk_cons (cFormat_ok h.format) (secsOk_cons (if_ok (txPr_ok h.font _) rfl) nofun)))

/-- The names of the sections of a title after its text. -/
theorem rest_names (t : CTitle) : t.restSecs.map Prod.fst = ["c:layout".toList, "c:overlay".toList, "c:spPr".toList, "c:txPr".toList] := rfl

theorem rich_ok {t : CTitle} (h : t.Ok) : ∀ k ∈ t.richTrees, treeOk k = true := by
  obtain ⟨h1, h2, _⟩ := cFontOk_parts h.font
  unfold CTitle.richTrees
  refine ok_cons (cBody_ok _ _) (ok_cons (by decide +kernel) (ok_single (treeOk_node (by decide +kernel) attrsGood_nil
    (ok_append ?_ (ok_single (treeOk_node (by decide +kernel) attrsGood_nil (ok_cons (cFont_ok true h1 h2)
      (ok_single (dataTree_ok (by decide +kernel) h.name)))))))))
  split
  · exact ok_nil
  · exact ok_single (para_ok h.font)

/-- The text and font of a rich text read back; without paragraph properties there is no direction. -/
theorem rich_read {t : CTitle} (h : t.Ok) (hp : t.ignorePara = false) :
    readRichLook (toNodes t.richTrees) = some (t.name, textSeen t.horizontal t.font) := by
  obtain ⟨h1, h2, _, h4⟩ := cFontOk_parts h.font
  unfold CTitle.richTrees readRichLook
  rw [hp]
  have e1 : attrsOf "a:bodyPr".toList (toNodes [t.font.bodyTree t.horizontal, .empty "a:lstStyle".toList [],
      .node "a:p".toList [] ((if false = true then [] else [t.font.paraTree]) ++
        [.node "a:r".toList [] [t.font.tree true, .data "a:t".toList t.name []]])]) = rotationAttrs (t.font.angle t.horizontal) := by
    unfold attrsOf
    rw [child_head (t := "a:bodyPr".toList) _ _ rfl]; rfl
  have e2 : child "a:p".toList (toNodes [t.font.bodyTree t.horizontal, .empty "a:lstStyle".toList [],
      .node "a:p".toList [] ((if false = true then [] else [t.font.paraTree]) ++
        [.node "a:r".toList [] [t.font.tree true, .data "a:t".toList t.name []]])]) =
      some ([], toNodes [t.font.paraTree, .node "a:r".toList [] [t.font.tree true, .data "a:t".toList t.name []]]) := by
    rw [child_skip (t.font.bodyTree t.horizontal) _ (by show "a:bodyPr".toList ≠ _; decide),
      child_skip (.empty "a:lstStyle".toList []) _ (by show "a:lstStyle".toList ≠ _; decide), child_head (t := "a:p".toList) _ _ rfl]
    rfl
  rw [e1, e2, rotation_read _ h4]
  dsimp only
  have e3 : child "a:r".toList (toNodes [t.font.paraTree, .node "a:r".toList [] [t.font.tree true, .data "a:t".toList t.name []]]) =
      some ([], toNodes [t.font.tree true, .data "a:t".toList t.name []]) := by
    rw [child_skip t.font.paraTree _ (by show "a:pPr".toList ≠ _; decide), child_head (t := "a:r".toList) _ _ rfl]; rfl
  have e4 : attrsOf "a:pPr".toList (toNodes [t.font.paraTree, .node "a:r".toList [] [t.font.tree true, .data "a:t".toList t.name []]]) =
      t.font.rtlAttrs := by
    unfold attrsOf
    rw [child_head (t := "a:pPr".toList) _ _ rfl]; rfl
  rw [e3, e4]
  simp only [Option.bind_some]
  rw [child_head (t := "a:rPr".toList) _ _ (cFont_tag _ true), Option.bind_some, cFont_read true h1,
    child_skip (t.font.tree true) _ (by rw [cFont_tag]; decide), child_head (t := "a:t".toList) _ _ rfl, Option.bind_some, rtl_read]
  simp only [treeParts, textOnly_data, unescapeX_plain h.name]
  rfl

/-- What is seen of a title that is there. -/
structure TitleShown (t : CTitle) (q : TitleLook) : Prop where
  text : q.text = if t.name = [] then none else some t.name
  look : t.name ≠ [] ∨ (t.ref.range.hasData = true ∧ t.format.hasFormatting = false) → q.look = some (textSeen t.horizontal t.font)
  layout : q.layout = layoutSeen t.layout
  overlay : q.overlay = t.overlay
  format : FormatMeant t.format q.format

/-- A title of the skeleton with the elements of a title; the cache may be filled. -/
structure IsTitle (t : CTitle) (tt : ChartTitle) : Prop where
  name : tt.name = t.name
  range : tt.ref.range = t.ref.range
  rich : tt.rich = t.richTrees
  rest : tt.rest = secTrees t.restSecs
  only : tt.only = if t.format.hasFormatting then some (secTrees t.restSecs) else none

theorem toTitle_is (t : CTitle) (m : CacheMap) : IsTitle t (t.toTitle.update m) := ⟨rfl, update_range _ _, rfl, rfl, rfl⟩

/-- The elements of a title with or without a text. -/
theorem title_kids {t : CTitle} (h : t.Ok) (tx : List Tree) (htx : ∀ x ∈ tx, treeOk x = true ∧ treeTag x = "c:tx".toList)
    (x : Option (Text × TextLook)) (hx : readTxLook (toNodes (tx ++ secTrees t.restSecs)) = some x)
    (hn : x.map (·.1) = if t.name = [] then none else some t.name)
    (hl : t.name ≠ [] → x.map (·.2) = some (textSeen t.horizontal t.font)) :
    ∃ q, readTitleLook (treeParts (.node "c:title".toList [] (tx ++ secTrees t.restSecs))) = some q ∧ TitleShown t q := by
  have hs : SecsOk (("c:tx".toList, tx) :: t.restSecs) := secsOk_cons htx (rest_secs h)
  have hnd : ((("c:tx".toList, tx) :: t.restSecs).map Prod.fst).Nodup := by
    rw [List.map_cons, rest_names]
    show (["c:tx".toList, "c:layout".toList, "c:overlay".toList, "c:spPr".toList, "c:txPr".toList] : List Str).Nodup
    decide +kernel
  have hk : tx ++ secTrees t.restSecs = secTrees (("c:tx".toList, tx) :: t.restSecs) := rfl
  show ∃ q, readTitleLook ([], toNodes (tx ++ secTrees t.restSecs)) = some q ∧ _
  have et : optChild readTextLook "c:txPr".toList (toNodes (tx ++ secTrees t.restSecs)) =
      some (if t.name = [] ∧ t.ref.range.hasData = true ∧ t.format.hasFormatting = false then
        some (textSeen t.horizontal t.font) else none) := by
    unfold optChild
    rw [hk, secTrees, secs_child hs hnd, show (("c:tx".toList, tx) :: t.restSecs).lookup "c:txPr".toList =
      some (if t.name = [] ∧ t.ref.range.hasData = true ∧ t.format.hasFormatting = false then [t.font.txPrTree t.horizontal] else []) from by
        unfold CTitle.restSecs; sec_look]
    by_cases hc : t.name = [] ∧ t.ref.range.hasData = true ∧ t.format.hasFormatting = false
    · rw [if_pos hc, if_pos hc]
      show (readTextLook (treeParts (t.font.txPrTree t.horizontal))).map some = _
      rw [txPr_read h.font]; rfl
    · rw [if_neg hc, if_neg hc]; rfl
  have ely : readLayoutIn (toNodes (tx ++ secTrees t.restSecs)) = some (layoutSeen t.layout) := by
    unfold readLayoutIn optChild
    rw [hk, secTrees, secs_child hs hnd, show (("c:tx".toList, tx) :: t.restSecs).lookup "c:layout".toList = some [t.layout.tree] from by
      unfold CTitle.restSecs; sec_look]
    show Option.map _ ((readLayout (treeParts t.layout.tree)).map some) = _
    rw [layout_read h.layout]; rfl
  have eo : cOn "c:overlay".toList (toNodes (tx ++ secTrees t.restSecs)) = t.overlay := by
    unfold cOn
    rw [hk, cVal_secs hs hnd, show (("c:tx".toList, tx) :: t.restSecs).lookup "c:overlay".toList = some (overlayTrees t.overlay) from by
      unfold CTitle.restSecs; sec_look]
    unfold overlayTrees
    cases t.overlay <;> decide
  obtain ⟨k, hk1, hk2⟩ := cFormat_in hs hnd (f := t.format) (by unfold CTitle.restSecs; sec_look) h.format
  rw [← hk] at hk1
  unfold readTitleLook
  dsimp only
  rw [hx, et, ely, hk1, eo]
  refine ⟨_, rfl, hn, fun hc => ?_, rfl, rfl, hk2⟩
  dsimp only
  by_cases hne : t.name = []
  · have hc' := hc.resolve_left (fun e => e hne)
    rw [if_pos ⟨hne, hc'⟩]
    rw [if_pos hne] at hn
    cases x with
    | none => rfl
    | some y => cases hn
  · rw [hl hne]; rfl

/-- What is seen of the title: a text or cells, or only a format. -/
theorem title_read (U : Unicode) {t : CTitle} {tt : ChartTitle} (ht : IsTitle t tt) (h : t.Ok) (hp : t.ignorePara = false)
    (hok : ∀ k ∈ chartTitleTrees U tt, treeOk k = true) :
    ((chartTitleTrees U tt).head?.map treeParts = none ∧ t.name = [] ∧ t.ref.range.hasData = false ∧ t.format.hasFormatting = false) ∨
    ∃ e q, (chartTitleTrees U tt).head?.map treeParts = some e ∧ readTitleLook e = some q ∧ TitleShown t q ∧
      (t.name ≠ [] ∨ t.ref.range.hasData = true ∨ t.format.hasFormatting = true) := by
  unfold chartTitleTrees at hok ⊢
  simp only [notEmpty_iff, ht.name, ht.range, ht.rich, ht.rest, ht.only] at hok ⊢
  by_cases hn : t.name = []
  · rw [if_neg (fun e => e hn)] at hok ⊢
    by_cases hd : t.ref.range.hasData = true
    · rw [if_pos hd] at hok ⊢
      refine Or.inr ?_
      have htx : treeOk (txFormulaTree U tt) = true := by
        have := hok _ List.mem_cons_self
        simp only [treeOk, treesOk, Bool.and_eq_true] at this
        exact this.2.1
      obtain ⟨q, hq1, hq2⟩ := title_kids h [txFormulaTree U tt] (one_ok htx rfl) none (by
        unfold readTxLook
        rw [show [txFormulaTree U tt] ++ secTrees t.restSecs = txFormulaTree U tt :: secTrees t.restSecs from rfl]
        rw [child_head (t := "c:tx".toList) _ _ rfl]
        rfl) (by rw [if_pos hn]; rfl) (fun e => absurd hn e)
      exact ⟨_, q, rfl, hq1, hq2, Or.inr (Or.inl hd)⟩
    · rw [if_neg hd]
      have hd' : t.ref.range.hasData = false := by simpa using hd
      by_cases hf : t.format.hasFormatting = true
      · rw [if_pos hf]
        refine Or.inr ?_
        obtain ⟨q, hq1, hq2⟩ := title_kids h [] (fun x hx => by cases hx) none (by
          unfold readTxLook
          rw [List.nil_append, secTrees, secs_child (rest_secs h) (by rw [rest_names]; decide +kernel)]
          rfl) (by rw [if_pos hn]; rfl) (fun e => absurd hn e)
        exact ⟨_, q, rfl, hq1, hq2, Or.inr (Or.inr hf)⟩
      · rw [if_neg hf]
        exact Or.inl ⟨rfl, hn, hd', by simpa using hf⟩
  · rw [if_pos hn] at hok ⊢
    refine Or.inr ?_
    have htx : treeOk (.node "c:tx".toList [] [.node "c:rich".toList [] t.richTrees]) = true := by
      have := hok _ List.mem_cons_self
      simp only [treeOk, treesOk, Bool.and_eq_true] at this ⊢
      exact this.2.1
    obtain ⟨q, hq1, hq2⟩ := title_kids h [.node "c:tx".toList [] [.node "c:rich".toList [] t.richTrees]] (one_ok htx rfl)
      (some (t.name, textSeen t.horizontal t.font)) (by
        unfold readTxLook
        rw [show [Tree.node "c:tx".toList [] [.node "c:rich".toList [] t.richTrees]] ++ secTrees t.restSecs =
          .node "c:tx".toList [] [.node "c:rich".toList [] t.richTrees] :: secTrees t.restSecs from rfl]
        rw [child_head (t := "c:tx".toList) _ _ rfl]
        show (readRichLook (toNodes t.richTrees)).map some = _
        rw [rich_read h hp]; rfl) (by rw [if_neg hn]; rfl) (fun _ => rfl)
    exact ⟨_, q, rfl, hq1, hq2, Or.inl hn⟩

end Verif
