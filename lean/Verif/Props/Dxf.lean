import Verif.Props.Style
import Verif.Lemmas.IdxTable
import Verif.Model.Dxf
import Verif.Spec.Dxf
/-!
C51: the number a worksheet writes for the format of a conditional format or a table column selects, in
the styles part, what the user asked for.
-/
set_option linter.unusedSimpArgs false
namespace Verif
open Spec

/-! ### Numbering -/

/-- The invariant of a table. -/
structure DxfTable.Inv (t : DxfTable) : Prop where
  tbl : TblInv t.indices
  keys : tblKeys t.indices = t.formats

theorem DxfTable.inv_empty : DxfTable.Inv {} := ⟨tblInv_nil, rfl⟩

theorem DxfTable.formatDxfIndex_spec {t : DxfTable} (h : t.Inv) (f : Format) :
    (t.formatDxfIndex f).2.Inv ∧ (∃ r, (t.formatDxfIndex f).2.formats = t.formats ++ r) ∧
    (t.formatDxfIndex f).2.formats[(t.formatDxfIndex f).1]? = some f ∧
    (∀ g ∈ (t.formatDxfIndex f).2.formats, g ∈ t.formats ∨ g = f) := by
  unfold DxfTable.formatDxfIndex
  cases hl : t.indices.lookup f with
  | some i =>
    refine ⟨h, ⟨[], by simp⟩, ?_, fun g hg => Or.inl hg⟩
    have := lookup_some_get h.tbl hl
    rwa [h.keys] at this
  | none =>
    have hk := lookup_none_iff.mp hl
    have hlen : t.formats.length = t.indices.length := by rw [← h.keys, tblKeys_length]
    refine ⟨⟨?_, ?_⟩, ⟨[f], rfl⟩, by simp, by simp⟩
    · dsimp only; rw [hlen]; exact tblInv_insert h.tbl hk
    · dsimp only; rw [tblKeys_cons, h.keys]

theorem DxfTable.addAll_spec (fs : List Format) {t : DxfTable} (h : t.Inv) :
    (t.addAll fs).2.Inv ∧ (∃ r, (t.addAll fs).2.formats = t.formats ++ r) ∧
    (∀ (k : Nat) (f : Format), fs[k]? = some f →
      ∃ i, (t.addAll fs).1[k]? = some i ∧ (t.addAll fs).2.formats[i]? = some f) ∧
    (∀ g ∈ (t.addAll fs).2.formats, g ∈ t.formats ∨ g ∈ fs) := by
  induction fs generalizing t with
  | nil => exact ⟨h, ⟨[], by simp [addAll]⟩, by simp, fun g hg => Or.inl hg⟩
  | cons f fs ih =>
    obtain ⟨h1, ⟨r1, e1⟩, h3, h4⟩ := formatDxfIndex_spec h f
    obtain ⟨g1, ⟨r2, e2⟩, g3, g4⟩ := ih h1
    refine ⟨g1, ⟨r1 ++ r2, by simp only [addAll]; rw [e2, e1]; simp⟩, ?_, ?_⟩
    · intro k x hx
      cases k with
      | zero =>
        simp at hx; subst hx
        refine ⟨_, rfl, ?_⟩
        simp only [addAll]
        rw [e2, List.getElem?_append_left (List.getElem?_eq_some_iff.mp h3).1]
        exact h3
      | succ k => simpa [addAll] using g3 k x (by simpa using hx)
    · intro g hg
      rcases g4 g hg with h' | h'
      · rcases h4 g h' with h'' | h''
        · exact Or.inl h''
        · exact Or.inr (h'' ▸ List.mem_cons_self)
      · exact Or.inr (List.mem_cons_of_mem _ h')

theorem DxfTable.addSheets_spec (ss : List (List Format)) {t : DxfTable} (h : t.Inv) :
    (t.addSheets ss).2.Inv ∧ (∃ r, (t.addSheets ss).2.formats = t.formats ++ r) ∧
    (∀ (j : Nat) (s : List Format), ss[j]? = some s → ∃ gs, (t.addSheets ss).1[j]? = some gs ∧
      ∀ (k : Nat) (f : Format), s[k]? = some f →
        ∃ i, gs[k]? = some i ∧ (t.addSheets ss).2.formats[i]? = some f) ∧
    (∀ g ∈ (t.addSheets ss).2.formats, g ∈ t.formats ∨ ∃ s ∈ ss, g ∈ s) := by
  induction ss generalizing t with
  | nil => exact ⟨h, ⟨[], by simp [addSheets]⟩, by simp, fun g hg => Or.inl hg⟩
  | cons s ss ih =>
    obtain ⟨h1, ⟨r1, e1⟩, h3, h4⟩ := addAll_spec s h
    obtain ⟨g1, ⟨r2, e2⟩, g3, g4⟩ := ih h1
    refine ⟨g1, ⟨r1 ++ r2, by simp only [addSheets]; rw [e2, e1]; simp⟩, ?_, ?_⟩
    · intro j x hx
      cases j with
      | zero =>
        simp at hx; subst hx
        refine ⟨_, rfl, ?_⟩
        intro k f hf
        obtain ⟨i, hi, hif⟩ := h3 k f hf
        refine ⟨i, hi, ?_⟩
        simp only [addSheets]
        rw [e2, List.getElem?_append_left (List.getElem?_eq_some_iff.mp hif).1]
        exact hif
      | succ j => simpa [addSheets] using g3 j x (by simpa using hx)
    · intro g hg
      rcases g4 g hg with h' | ⟨x, hx, hgx⟩
      · rcases h4 g h' with h'' | h''
        · exact Or.inl h''
        · exact Or.inr ⟨s, List.mem_cons_self, h''⟩
      · exact Or.inr ⟨x, List.mem_cons_of_mem _ hx, hgx⟩

/-! ### Reading one `dxf` element -/

theorem fillTree_tag' (f : Fill) (b : Bool) : treeTag (fillTree f b) = "fill".toList := by
  unfold fillTree; split <;> rfl

/-- The children of a `dxf` element, by tag. -/
theorem child_dxfTree (f : Format) (t : Text) : child t (treeParts (dxfTree f)).2 =
    (if f.font.hasDxf = true ∧ "font".toList = t then some (treeParts (fontTree f.font true)) else none).or
    ((if decide (f.numFormatIndex > 0) = true ∧ "numFmt".toList = t then
      some (treeParts (numFmtTree f.numFormatIndex f.numFormat)) else none).or
    ((if f.fill.hasDxf = true ∧ "fill".toList = t then some (treeParts (fillTree f.fill true)) else none).or
    ((if decide (f.borders ≠ {}) = true ∧ "border".toList = t then
      some (treeParts (borderTree f.borders true)) else none).or
    (if f.checkbox = true ∧ "extLst".toList = t then some (treeParts dxfExtTree) else none)))) := by
  have one : ∀ (b : Bool) (x : Tree) (tag : Text), treeTag x = tag →
      child t (toNodes (optTree b x)) = if b = true ∧ tag = t then some (treeParts x) else none := by
    intro b x tag hx
    cases b
    · simp [optTree, toNodes, child]
    · simp only [optTree, if_true, child_trees, List.find?_cons, List.find?_nil, hx, true_and]
      by_cases h : tag = t <;> simp [h]
  have hk : (treeParts (dxfTree f)).2 = toNodes (optTree f.font.hasDxf (fontTree f.font true) ++
     optTree (f.numFormatIndex > 0) (numFmtTree f.numFormatIndex f.numFormat) ++
     optTree f.fill.hasDxf (fillTree f.fill true) ++
     optTree (f.borders ≠ {}) (borderTree f.borders true) ++
     optTree f.checkbox dxfExtTree) := rfl
  rw [hk]
  simp only [toNodes_append, child_append, Option.or_assoc]
  rw [one _ (fontTree f.font true) "font".toList rfl,
    one _ (numFmtTree f.numFormatIndex f.numFormat) "numFmt".toList rfl,
    one _ (fillTree f.fill true) "fill".toList (fillTree_tag' _ _),
    one _ (borderTree f.borders true) "border".toList rfl, one _ dxfExtTree "extLst".toList rfl]

theorem child_fontColor_dxf (t : Text) (c : Color) :
    child t (toNodes (fontColorTrees c true)) =
      if t = "color".toList then
        (match c with
         | .automatic => none
         | .default => none
         | c => some (c.attributes, []))
      else none := by
  cases c <;> simp [fontColorTrees, optTree, toNodes, Tree.toNode, child, eq_comm]

/-- The children of the font of a `dxf` element, by tag. -/
theorem child_dxfFont (f : Font) (t : Text) : child t (treeParts (fontTree f true)).2 =
    (if f.bold = true ∧ "b".toList = t then some ([], []) else none).or
    ((if f.italic = true ∧ "i".toList = t then some ([], []) else none).or
    ((if f.strikethrough = true ∧ "strike".toList = t then some ([], []) else none).or
    ((if decide (f.underline ≠ .none) = true ∧ "u".toList = t then some ((match f.underline with
      | .double => [("val".toList, "double".toList)]
      | .singleAccounting => [("val".toList, "singleAccounting".toList)]
      | .doubleAccounting => [("val".toList, "doubleAccounting".toList)]
      | _ => []), []) else none).or
    ((if decide (f.script ≠ .none) = true ∧ "vertAlign".toList = t then some ((match f.script with
      | .superscript => [("val".toList, "superscript".toList)]
      | .subscript => [("val".toList, "subscript".toList)]
      | .none => []), []) else none).or
    (if t = "color".toList then
        (match f.color with
         | .automatic => none
         | .default => none
         | c => some (c.attributes, []))
      else none))))) := by
  simp only [fontTree, treeParts, toNodes_append, underline_tree, vertAlign_tree, child_append,
    child_optTree_empty, child_fontColor_dxf, Bool.not_true, if_true, if_false,
    Bool.false_eq_true, Option.or_assoc, true_and, false_and, toNodes, child, Option.or_none, Option.none_or]
  rfl

/-- The font a reader looks at. -/
def dxfFontKids (f : Format) : List Node :=
  ((child "font".toList (treeParts (dxfTree f)).2).map Prod.snd).getD []

theorem dxfFont_child (f : Font) (h : f.hasDxf = false) : f.bold = false ∧ f.italic = false ∧
    f.strikethrough = false ∧ f.underline = .none ∧ (f.color = .default ∨ f.color = .automatic) := by
  simp only [Font.hasDxf, Bool.or_eq_false_iff, decide_eq_false_iff_not, Bool.not_eq_eq_eq_not,
    Bool.not_false, Color.isAutoOrDefault, Bool.or_eq_true, decide_eq_true_eq, Decidable.not_not] at h
  exact ⟨h.1.1.1.1, h.1.1.1.2, h.1.2, h.1.1.2, h.2.symm⟩

theorem readDxf_font (f : Format) (hc : f.font.color.ok = true) :
    (child "b".toList (dxfFontKids f)).isSome = f.font.bold ∧
    (child "i".toList (dxfFontKids f)).isSome = f.font.italic ∧
    (child "strike".toList (dxfFontKids f)).isSome = f.font.strikethrough ∧
    ((child "u".toList (dxfFontKids f)).map fun c => (c.1.lookup "val".toList).getD "single".toList) =
      (fontMeant f.font).underline ∧
    readDxfColor (dxfFontKids f) = some (colorChange f.font.color) := by
  have hk : dxfFontKids f = if f.font.hasDxf = true then (treeParts (fontTree f.font true)).2 else [] := by
    unfold dxfFontKids
    rw [child_dxfTree]
    cases f.font.hasDxf <;> simp
  rw [hk]
  generalize f.font = f at *
  cases hd : f.hasDxf with
  | false =>
    obtain ⟨h1, h2, h3, h4, h5⟩ := dxfFont_child f hd
    simp only [Bool.false_eq_true, if_false, child, h1, h2, h3, fontMeant, h4, readDxfColor, colorChange,
      if_pos h5]
    simp
  | true =>
    simp only [if_true]
    have key := child_dxfFont f
    generalize (treeParts (fontTree f true)).2 = ks at key
    refine ⟨?_, ?_, ?_, ?_, ?_⟩
    · rw [key]; cases f.bold <;> simp
    · rw [key]; cases f.italic <;> simp
    · rw [key]; cases f.strikethrough <;> simp
    · rw [key]; cases hu : f.underline <;> simp [hu, fontMeant, List.lookup]
    · unfold readDxfColor
      have e : child "color".toList ks = match f.color with
         | .automatic => none
         | .default => none
         | c => some (c.attributes, []) := by
        rw [key]; simp
      rw [e]
      unfold colorChange
      by_cases hd : f.color = .default
      · simp [hd]
      · by_cases ha : f.color = .automatic
        · simp [ha]
        · have := readColor_attributes hc hd ha
          rw [if_neg (by simp [hd, ha])]
          generalize f.color = c at hd ha this
          cases c <;> first | exact absurd rfl hd | exact absurd rfl ha | simpa using this

theorem readDxf_num (f : Format) : readDxfNum (treeParts (dxfTree f)).2 =
      some (if f.numFormatIndex = 0 then none
        else some (if f.numFormatIndex < 164 then .builtIn f.numFormatIndex else .code f.numFormat, f.numFormat)) := by
  unfold readDxfNum
  rw [child_dxfTree]
  by_cases h : f.numFormatIndex = 0
  · simp [h]
  · have : f.numFormatIndex > 0 := by omega
    simp [h, this, numFmtTree, treeParts, readNumFmt, attrNat, List.lookup, readNat_showNat]

theorem readDxf_side (t : Text) (s : FormatBorder) (c : Color) (f : Format) (hc : c.ok = true)
    (hin : child t (treeParts (borderTree f.borders true)).2 = some (treeParts (subBorderTree t s c)))
    (hz : f.borders = {} → s = .none) :
    readDxfSide t (treeParts (dxfTree f)).2 = some (sideMeant s c) := by
  unfold readDxfSide
  rw [child_dxfTree]
  by_cases h : f.borders = {}
  · simp [h, sideMeant, hz h]
  · simp only [ne_eq, h, not_false_eq_true, decide_true, true_and, if_true]
    simp only [show ("font".toList = "border".toList) = False from by simp,
      show ("numFmt".toList = "border".toList) = False from by simp,
      show ("fill".toList = "border".toList) = False from by simp, and_false, if_false, Option.none_or,
      Option.some_or]
    unfold readSide
    rw [hin]
    exact side_parts s c hc t

theorem colorChange_none {c : Color} : colorChange c = none ↔ c = .default ∨ c = .automatic := by
  unfold colorChange; split <;> simp_all

theorem colorChange_some {c : Color} (h : ¬ (c = .default ∨ c = .automatic)) :
    colorChange c = some (colorMeant c) := by
  unfold colorChange; rw [if_neg h]

theorem colorMeant_auto {c : Color} (h : c = .default ∨ c = .automatic) : colorMeant c = .auto := by
  rcases h with h | h <;> rw [h] <;> rfl

theorem color_known {c : Color} (hc : c.ok = true) (hn : ¬ (c = .default ∨ c = .automatic)) :
    (readColor c.attributes).map (fun x => if x = .indexed 64 then .auto else x) = some (colorMeant c) := by
  rw [readColor_attributes hc (fun e => hn (Or.inl e)) (fun e => hn (Or.inr e))]
  simp [colorMeant_ne_indexed]

theorem dxf_fg {fg : Color} (h1 : fg.ok = true) :
    (if (decide (fg ≠ .default) && decide (fg ≠ .automatic)) = true then
      (readColor fg.attributes).map (fun x => if x = .indexed 64 then ColorSeen.auto else x) else some .auto) =
      some (colorMeant fg) := by
  by_cases hf : fg = .default ∨ fg = .automatic
  · rw [colorMeant_auto hf, if_neg]
    rcases hf with h | h <;> simp [h]
  · rw [color_known h1 hf, if_pos]
    simpa [not_or] using hf

theorem dxf_bg {bg : Color} (h2 : bg.ok = true) :
    (readColor (if bg = Color.default || bg = Color.automatic then
      [("indexed".toList, "64".toList)] else bg.attributes)).map
        (fun x => if x = .indexed 64 then ColorSeen.auto else x) = some (colorMeant bg) := by
  by_cases hb : bg = .default ∨ bg = .automatic
  · rw [colorMeant_auto hb, if_pos (by simpa using hb)]
    decide +kernel
  · rw [if_neg (by simpa using hb)]
    exact color_known h2 hb

/-- A fill element as a reader of a differential format sees it. -/
theorem readDxfFill_parts (ks : List Node) (pa : NodeAttrs) (inner : List Node) (x y : ColorSeen)
    (hk : child "fill".toList ks = some ([], [.elem "patternFill".toList pa inner]))
    (hx : readFillColor "fgColor".toList inner = some x) (hy : readFillColor "bgColor".toList inner = some y) :
    readDxfFill ks = some (if (pa.lookup "patternType".toList).getD "solid".toList = "none".toList then .none
      else if (pa.lookup "patternType".toList).getD "solid".toList = "solid".toList then .solid y
      else .pattern ((pa.lookup "patternType".toList).getD "solid".toList) x y) := by
  unfold readDxfFill
  rw [hk]
  simp only [child, if_true, Option.bind_some, hx, hy]

theorem text_none (p : FormatPattern) : p.text = "none".toList ↔ p = .none := by cases p <;> decide +kernel
theorem text_solid (p : FormatPattern) : p.text = "solid".toList ↔ p = .solid := by cases p <;> decide +kernel

theorem readDxf_fill (f : Format) (h1 : f.fill.foregroundColor.ok = true)
    (h2 : f.fill.backgroundColor.ok = true) (h3 : loneForeground f.fill = false) :
    readDxfFill (treeParts (dxfTree f)).2 = some (dxfFillMeant f.fill) := by
  have hk : child "fill".toList (treeParts (dxfTree f)).2 =
      if f.fill.hasDxf = true then some (treeParts (fillTree f.fill true)) else none := by
    rw [child_dxfTree]
    cases f.fill.hasDxf <;> simp
  generalize (treeParts (dxfTree f)).2 = ks at hk
  generalize f.fill = f at *
  obtain ⟨fg, bg, pat⟩ := f
  dsimp only at h1 h2
  cases hd : (Fill.mk fg bg pat).hasDxf with
  | false =>
    rw [hd] at hk
    simp only [Fill.hasDxf, Bool.or_eq_false_iff, decide_eq_false_iff_not, Decidable.not_not,
      Bool.not_eq_eq_eq_not, Bool.not_false, Color.isAutoOrDefault, Bool.or_eq_true, decide_eq_true_eq] at hd
    obtain ⟨⟨hp, hb⟩, hf⟩ := hd
    simp only [Bool.false_eq_true, if_false] at hk
    unfold readDxfFill
    rw [hk]
    simp only [dxfFillMeant]
    rw [colorChange_none.mpr hb.symm, colorChange_none.mpr hf.symm, if_pos (Or.inl hp)]
    simp [hp]
  | true =>
    rw [hd] at hk
    simp only [if_true] at hk
    unfold fillTree at hk
    dsimp only at hk
    by_cases hc : pat ≠ .none ∧ (bg = .default ∨ bg = .automatic) ∧ (fg = .default ∨ fg = .automatic)
    · rw [if_pos hc] at hk
      obtain ⟨hp, hb, hf⟩ := hc
      rw [readDxfFill_parts ks [("patternType".toList, pat.text)] [] .auto .auto hk rfl rfl]
      simp only [List.lookup_cons, beq_self_eq_true, Option.getD_some, text_none, text_solid, if_neg hp]
      simp only [dxfFillMeant, colorChange_none.mpr hb, colorChange_none.mpr hf, hp, false_or,
        colorMeant_auto hb, colorMeant_auto hf, patternText, if_false]
    · rw [if_neg hc] at hk
      have hbg : (if (decide (bg = Color.default) || decide (bg = Color.automatic)) = true then
            Tree.empty "bgColor".toList [("indexed".toList, "64".toList)]
          else .empty "bgColor".toList bg.attributes) =
          .empty "bgColor".toList (if bg = Color.default || bg = Color.automatic then
            [("indexed".toList, "64".toList)] else bg.attributes) := by
        split <;> rfl
      simp only [Bool.not_true, Bool.false_and, Bool.false_eq_true, if_false, Bool.true_and] at hk
      rw [hbg] at hk
      rw [readDxfFill_parts ks _ _ (colorMeant fg) (colorMeant bg) hk
        (by rw [fillColor_fg]; exact dxf_fg h1) (by rw [fillColor_bg]; exact dxf_bg h2)]
      unfold dxfFillMeant
      dsimp only
      by_cases hp : pat = .none ∨ pat = .solid
      · have hp' : (decide (pat = FormatPattern.none) || decide (pat = FormatPattern.solid)) = true := by
          simpa using hp
        rw [if_pos hp', if_pos hp]
        by_cases hb : bg = .default ∨ bg = .automatic
        · exfalso
          have hfg : fg = .default ∨ fg = .automatic := by
            simp only [loneForeground, Bool.and_eq_false_iff, hp', colorChange_none.mpr hb] at h3
            rcases h3 with (h | h) | h
            · cases h
            · cases h
            · exact colorChange_none.mp (by simpa using h)
          rcases hp with rfl | rfl
          · rcases hb with rfl | rfl <;> rcases hfg with rfl | rfl <;>
              simp [Fill.hasDxf, Color.isAutoOrDefault] at hd
          · exact hc ⟨by simp, hb, hfg⟩
        · rw [colorChange_some hb]
          have l : (([] : NodeAttrs).lookup "patternType".toList).getD "solid".toList = "solid".toList := rfl
          rw [l, if_neg (by decide), if_pos rfl]
      · have hp' : ¬ (decide (pat = FormatPattern.none) || decide (pat = FormatPattern.solid)) = true := by
          simpa using hp
        rw [if_neg hp', if_neg hp]
        simp only [List.lookup_cons, beq_self_eq_true, Option.getD_some, text_none, text_solid, patternText]
        rw [← patternText]
        rw [if_neg, if_neg]
        · rw [text_solid]; exact fun e => hp (Or.inr e)
        · rw [text_none]; exact fun e => hp (Or.inl e)

theorem dxf_side_child (b : Border) : 
    child "left".toList (treeParts (borderTree b true)).2 =
      some (treeParts (subBorderTree "left".toList b.leftStyle b.leftColor)) ∧
    child "right".toList (treeParts (borderTree b true)).2 =
      some (treeParts (subBorderTree "right".toList b.rightStyle b.rightColor)) ∧
    child "top".toList (treeParts (borderTree b true)).2 =
      some (treeParts (subBorderTree "top".toList b.topStyle b.topColor)) ∧
    child "bottom".toList (treeParts (borderTree b true)).2 =
      some (treeParts (subBorderTree "bottom".toList b.bottomStyle b.bottomColor)) := by
  have hin : (treeParts (borderTree b true)).2 = toNodes [subBorderTree "left".toList b.leftStyle b.leftColor,
      subBorderTree "right".toList b.rightStyle b.rightColor,
      subBorderTree "top".toList b.topStyle b.topColor,
      subBorderTree "bottom".toList b.bottomStyle b.bottomColor,
      .empty "vertical".toList [], .empty "horizontal".toList []] := rfl
  rw [hin]
  refine ⟨?_, ?_, ?_, ?_⟩ <;>
  · rw [child_trees]
    simp only [List.find?_cons, subBorder_tag]
    simp

theorem readDxf_checkbox (f : Format) : (child "extLst".toList (treeParts (dxfTree f)).2).isSome = f.checkbox := by
  rw [child_dxfTree]
  cases f.checkbox <;> simp

/-- A `dxf` element for a format whose number format has been numbered. -/
theorem readDxfKids_dxfTree (f : Format) (h : f.font.color.ok = true) (h1 : f.fill.foregroundColor.ok = true)
    (h2 : f.fill.backgroundColor.ok = true) (h3 : loneForeground f.fill = false) (h4 : f.borders.colorsOk = true) :
    readDxfKids (treeParts (dxfTree f)).2 = some { dxfMeant f with
      num := if f.numFormatIndex = 0 then none
        else some (if f.numFormatIndex < 164 then .builtIn f.numFormatIndex else .code f.numFormat, f.numFormat) } := by
  simp only [Border.colorsOk, Bool.and_eq_true] at h4
  obtain ⟨f1, f2, f3, f4, f5⟩ := readDxf_font f h
  obtain ⟨s1, s2, s3, s4⟩ := dxf_side_child f.borders
  have l := readDxf_side "left".toList _ _ f h4.1.1.1.1 s1 (fun e => by rw [e])
  have r := readDxf_side "right".toList _ _ f h4.1.1.1.2 s2 (fun e => by rw [e])
  have t := readDxf_side "top".toList _ _ f h4.1.1.2 s3 (fun e => by rw [e])
  have b := readDxf_side "bottom".toList _ _ f h4.1.2 s4 (fun e => by rw [e])
  unfold readDxfKids
  have e : ((child "font".toList (treeParts (dxfTree f)).2).map Prod.snd).getD [] = dxfFontKids f := rfl
  dsimp only
  rw [e]
  rw [f5, readDxf_num, readDxf_fill f h1 h2 h3, l, r, t, b]
  dsimp only
  rw [f1, f2, f3, f4, readDxf_checkbox]
  rfl

/-! ### The `dxfs` element can be written and read -/

theorem dxfTree_ok {f : Format} (hn : attrSafe f.numFormat = true) : treeOk (dxfTree f) = true := by
  refine treeOk_node (by decide) attrsGood_nil (ok_append (ok_append (ok_append (ok_append ?_ ?_) ?_) ?_) ?_)
  · refine ok_optTree fun _ => treeOk_node (by decide) attrsGood_nil ?_
    simp only [Bool.not_true, if_true]
    refine ok_append (ok_append (ok_append (ok_append (ok_append (ok_append (ok_append ?_ ?_) ?_) ?_)
      ?_) ?_) ?_) ok_nil
    · exact ok_optTree fun _ => by decide
    · exact ok_optTree fun _ => by decide
    · exact ok_optTree fun _ => by decide
    · exact ok_optTree fun _ => by generalize f.font.underline = u; revert u; intro u; cases u <;> decide +kernel
    · exact ok_optTree fun _ => by generalize f.font.script = u; revert u; intro u; cases u <;> decide +kernel
    · exact ok_optTree fun h => by cases h
    · unfold fontColorTrees
      split
      · exact ok_nil
      · exact ok_optTree fun h => by cases h
      · exact ok_single (treeOk_empty (by decide) (color_good _))
  · refine ok_optTree fun _ => treeOk_empty (by decide) ⟨?_, by simp only [List.map_cons, List.map_nil]; decide⟩
    intro x hx
    simp only [List.mem_cons, List.not_mem_nil, or_false] at hx
    rcases hx with rfl | rfl
    · simp only [attrOk, showNat_attrSafe, Bool.and_true]; decide
    · simp only [attrOk, hn, Bool.and_true]; decide
  · refine ok_optTree fun _ => ?_
    unfold fillTree
    split
    · exact defaultFill_ok (pattern_safe _)
    · refine treeOk_node (by decide) attrsGood_nil (ok_single (treeOk_node (by decide) ?_
        (ok_append (ok_optTree fun _ => treeOk_empty (by decide) ?_) (ok_single ?_))))
      · split
        · exact attrsGood_nil
        · exact attrsGood_one (by decide) (pattern_safe _)
      · split <;> exact color_good _
      · split
        · decide +kernel
        · exact treeOk_empty (by decide) (by split <;> exact color_good _)
  · refine ok_optTree fun _ => treeOk_node (by decide) ?_ ?_
    · cases f.borders.diagonalType <;> exact ⟨by decide +kernel, by decide +kernel⟩
    · intro k hk
      simp only [if_true, List.cons_append, List.nil_append, List.mem_cons,
        List.not_mem_nil, or_false] at hk
      rcases hk with rfl | rfl | rfl | rfl | rfl | rfl
      case inr.inr.inr.inr.inl => decide
      case inr.inr.inr.inr.inr => decide
      all_goals exact subBorder_ok (by decide) _ _
  · exact ok_optTree fun _ => by decide +kernel

theorem dxfsTree_tag (ds : List Format) : treeTag (dxfsTree ds) = "dxfs".toList := by
  unfold dxfsTree; split <;> rfl

theorem dxfsTree_ok {ds : List Format} (h : ∀ f ∈ ds, attrSafe f.numFormat = true) :
    treeOk (dxfsTree ds) = true := by
  unfold dxfsTree
  split
  · exact treeOk_empty (by decide) (attrsGood_one (by decide) (showNat_attrSafe 0))
  · refine treeOk_node (by decide) (attrsGood_one (by decide) (showNat_attrSafe _)) ?_
    intro k hk
    obtain ⟨f, hf, rfl⟩ := List.mem_map.mp hk
    exact dxfTree_ok (h f hf)

theorem find_dxfs {d : StyleData} {dxfs : Tree} (h : treeTag dxfs = "dxfs".toList) :
    (stylesKids d dxfs).find? (fun x => decide (treeTag x = "dxfs".toList)) = some dxfs := by
  have t1 : treeTag (fontsTree d) = "fonts".toList := rfl
  have t2 : treeTag (fillsTree d) = "fills".toList := rfl
  have t3 : treeTag (bordersTree d) = "borders".toList := rfl
  have t4 : treeTag (cellStyleXfsTree d) = "cellStyleXfs".toList := rfl
  have t5 : treeTag (cellXfsTree d) = "cellXfs".toList := rfl
  have t6 : treeTag (cellStylesTree d) = "cellStyles".toList := rfl
  unfold stylesKids
  rw [find_append_numFmts _ _ (by decide)]
  simp only [List.find?_cons, t1, t2, t3, t4, t5, t6, h]
  simp

theorem readItems_dxfs (d : StyleData) (ds : List Format) :
    readItems "dxfs".toList "dxf".toList (toNodes (stylesKids d (dxfsTree ds))) =
      some (ds.map fun f => treeParts (dxfTree f)) := by
  by_cases h : ds = []
  · subst h
    unfold readItems
    rw [child_trees, find_dxfs (dxfsTree_tag _)]
    simp [dxfsTree, treeParts, childrenAll, attrNat, List.lookup, readNat_showNat]
  · rw [readItems_node "dxfs".toList "dxf".toList _ ds.length (ds.map dxfTree) ?_ ?_ (by simp)]
    · simp
    · rw [find_dxfs (dxfsTree_tag _)]
      simp [dxfsTree, h]
    · intro t ht
      obtain ⟨f, _, rfl⟩ := List.mem_map.mp ht
      rfl

/-! ### Number formats -/

theorem preparedXf_fmt (fs : List Format) :
    (preparedXf fs).map (fun p => p.fmt) = fs.map fun f => { f with fill := fixFill f.fill } := by
  unfold preparedXf prepareBorders
  rw [indexLoop_map _ PFormat.setBorderIndex (fun p => p.fmt) (fun _ _ _ => rfl)]
  unfold prepareFills
  rw [indexLoop_map _ PFormat.setFillIndex (fun p => p.fmt) (fun _ _ _ => rfl), List.map_map]
  have h := indexLoop_map (fun p => p.fmt.font) PFormat.setFontIndex
    (fun p : PFormat => { p.fmt with fill := fixFill p.fmt.fill }) (fun _ _ _ => rfl)
    (fs.map fun f => { fmt := f }) [] 0
  rw [List.map_map] at h
  exact h

theorem preparedXf_length (fs : List Format) : (preparedXf fs).length = fs.length := by
  have := congrArg List.length (preparedXf_fmt fs)
  simpa using this

theorem numFormatLoop_append (xs ys : List PFormat) (table : List (Str × Nat)) (index : Nat) (nf : List Str) :
    (numFormatLoop table index nf xs).2 <+: (numFormatLoop table index nf (xs ++ ys)).2 := by
  induction xs generalizing table index nf with
  | nil => exact numFormatLoop_prefix ..
  | cons p ps ih =>
    rw [List.cons_append]
    unfold numFormatLoop
    split
    · exact ih ..
    · cases h : table.lookup p.fmt.numFormat <;> exact ih ..

/-- The number formats of the user in order of their numbers, those of cells first. -/
def allCodes (fs ds : List Format) : List Str :=
  (numFormatLoop [] 164 [] (preparedXf fs ++ ds.map fun f => { fmt := f })).2

theorem numberDxfs_spec (fs ds : List Format) (hf : ∀ f ∈ fs, f.numFormatIndex < 164)
    (hd : ∀ f ∈ ds, f.numFormatIndex < 164) :
    (numberDxfs fs ds).length = ds.length ∧
    ∀ (k : Nat) (f : Format), ds[k]? = some f → ∃ n, (numberDxfs fs ds)[k]? = some { f with numFormatIndex := n } ∧
      numShown (allCodes fs ds) n = numMeant f := by
  have hall : ∀ p ∈ preparedXf fs ++ ds.map (fun f => ({ fmt := f } : PFormat)), p.fmt.numFormatIndex < 164 := by
    intro p hp
    rcases List.mem_append.mp hp with h | h
    · have : p.fmt ∈ (preparedXf fs).map (fun p => p.fmt) := List.mem_map_of_mem h
      rw [preparedXf_fmt] at this
      obtain ⟨f, hf', e⟩ := List.mem_map.mp this
      rw [← e]; exact hf f hf'
    · obtain ⟨f, hf', e⟩ := List.mem_map.mp h
      rw [← e]; exact hd f hf'
  have hsp := numFormatLoop_spec _ hall [] 164 [] (by rfl) (by simp) (by simp) (by simp)
  have hm := numFormatLoop_map (fun p : PFormat => { p.fmt with numFormatIndex := 0 }) (fun _ _ => rfl)
    (preparedXf fs ++ ds.map fun f => { fmt := f }) [] 164 []
  unfold numberDxfs allCodes
  dsimp only at hsp
  have hL := preparedXf_length fs
  have hget : ∀ k, (preparedXf fs ++ ds.map fun f => ({ fmt := f } : PFormat))[fs.length + k]? =
      (ds[k]?).map fun f => { fmt := f } := by
    intro k
    rw [← hL, List.getElem?_append_right (by omega)]
    simp
  have hlen := congrArg List.length hm
  simp only [List.length_map, List.length_append, hL] at hlen
  generalize (preparedXf fs ++ ds.map fun f => ({ fmt := f } : PFormat)) = all at hsp hm hget hlen ⊢
  generalize numFormatLoop [] 164 [] all = r at hsp hm hlen ⊢
  constructor
  · simp only [List.length_map, List.length_drop]; omega
  · intro k f hk
    have h1 := hget k
    rw [hk] at h1
    simp only [Option.map_some] at h1
    have hlt : fs.length + k < r.1.length := by
      have := (List.getElem?_eq_some_iff.mp hk).1
      omega
    obtain ⟨q, hq⟩ : ∃ q, r.1[fs.length + k]? = some q := ⟨_, List.getElem?_eq_getElem hlt⟩
    have h2 := congrArg (fun l : List Format => l[fs.length + k]?) hm
    simp only [List.getElem?_map, hq, h1, Option.map_some, Option.some.injEq] at h2
    refine ⟨q.fmt.numFormatIndex, ?_, hsp.2 _ _ q h1 hq⟩
    simp only [List.getElem?_map, List.getElem?_drop, hq, Option.map_some, Option.some.injEq]
    have e : q.fmt = { ({ q.fmt with numFormatIndex := 0 } : Format) with numFormatIndex := q.fmt.numFormatIndex } := rfl
    rw [e, h2]

/-- A number that shows what was meant, given the numbers Excel keeps for itself. -/
theorem numShown_cases {codes : List Str} {n : Nat} {f : Format} (hf : f.numFormatIndex < 164)
    (h : numShown codes n = numMeant f) :
    (if n = 0 then none else some (if n < 164 then NumSeen.builtIn n else .code f.numFormat, f.numFormat)) =
      (dxfMeant f).num ∧ (164 ≤ n → codes[n - 164]? = some f.numFormat) := by
  by_cases h0 : f.numFormatIndex = 0
  · by_cases h1 : f.numFormat = []
    · have hm : numMeant f = .builtIn 0 := by simp [numMeant, h0, h1]
      rw [hm] at h
      unfold numShown at h
      have : n = 0 := by
        split at h
        · cases h; rfl
        · split at h
          · cases h
          · simp at h; exact h
      subst this
      simp [dxfMeant, h0, h1]
    · have hm : numMeant f = .code f.numFormat := by simp [numMeant, h0, h1]
      rw [hm] at h
      unfold numShown at h
      split at h
      · cases h
      · rename_i hlt
        split at h
        · rename_i s hs
          simp only [NumSeen.code.injEq] at h
          subst h
          refine ⟨?_, fun _ => hs⟩
          have : n ≠ 0 := by omega
          simp [dxfMeant, h0, h1, this, hlt, numMeant]
        · cases h
  · have hm : numMeant f = .builtIn f.numFormatIndex := by simp [numMeant, h0]
    rw [hm] at h
    unfold numShown at h
    have : n = f.numFormatIndex := by
      split at h
      · cases h; rfl
      · split at h
        · cases h
        · cases h; rfl
    subst this
    refine ⟨?_, fun h => by omega⟩
    simp [dxfMeant, h0, hf, numMeant]

theorem numFmts_pairs (nf : List Str) (i : Nat) : ∀ e ∈ (numFmtTrees i nf).map treeParts,
    ∃ n c, readNumFmt e.1 = some (n, c) ∧ i + 164 ≤ n ∧ nf[n - (i + 164)]? = some c := by
  induction nf generalizing i with
  | nil => simp [numFmtTrees]
  | cons s r ih =>
    intro e he
    simp only [numFmtTrees, List.map_cons, List.mem_cons] at he
    rcases he with rfl | he
    · refine ⟨i + 164, s, ?_, Nat.le_refl _, by simp⟩
      generalize i + 164 = n
      simp [numFmtTree, treeParts, readNumFmt, attrNat, List.lookup, readNat_showNat]
    · obtain ⟨n, c, h1, h2, h3⟩ := ih (i + 1) e he
      refine ⟨n, c, h1, by omega, ?_⟩
      rw [show n - (i + 164) = (n - (i + 1 + 164)) + 1 by omega]
      simpa using h3

/-! ### The theorems -/

/-- The numbers the calls of `add_conditional_format` and `add_table` with these formats leave behind on a
worksheet: call `k` keeps `(localDxfs calls).1[k]`, and the worksheet hands `(localDxfs calls).2` to the
workbook. -/
def localDxfs (calls : List Format) : List Nat × List Format :=
  let r := DxfTable.addAll {} calls
  (r.1, r.2.formats)

/-- A first save of a workbook whose worksheets were given these formats: the numbers per worksheet, and the
differential formats that go into the styles part. -/
def savedDxfs (fs : List Format) (calls : List (List Format)) : List (List Nat) × List Format :=
  let r := DxfTable.save {} fs (calls.map fun c => (localDxfs c).2)
  (r.1, r.2.formats)

theorem savedDxfs_spec (fs : List Format) (calls : List (List Format))
    (hf : ∀ f ∈ fs, f.numFormatIndex < 164) (hd : ∀ c ∈ calls, ∀ f ∈ c, f.numFormatIndex < 164) :
    ∃ codes : List Str, (prepareStyles fs false false).numFormats <+: codes ∧
      (∀ (i : Nat) (c : List Format), calls[i]? = some c → ∀ (k : Nat) (f : Format), c[k]? = some f →
        ∃ loc gs g n, (localDxfs c).1[k]? = some loc ∧ (savedDxfs fs calls).1[i]? = some gs ∧
          gs[loc]? = some g ∧ (savedDxfs fs calls).2[g]? = some { f with numFormatIndex := n } ∧
          numShown codes n = numMeant f) ∧
      (∀ (g : Nat) (q : Format), (savedDxfs fs calls).2[g]? = some q → ∃ c ∈ calls, ∃ f ∈ c,
        q = { f with numFormatIndex := q.numFormatIndex } ∧ numShown codes q.numFormatIndex = numMeant f) := by
  obtain ⟨hinv, _, hget, hmem⟩ := DxfTable.addSheets_spec (calls.map fun c => (localDxfs c).2) DxfTable.inv_empty
  have hloc := fun c => DxfTable.addAll_spec c DxfTable.inv_empty
  have hfrom : ∀ q ∈ (DxfTable.addSheets {} (calls.map fun c => (localDxfs c).2)).2.formats,
      ∃ c ∈ calls, q ∈ c := by
    intro q hq
    rcases hmem q hq with h | ⟨s, hs, hqs⟩
    · simp at h
    · obtain ⟨c, hc, rfl⟩ := List.mem_map.mp hs
      rcases (hloc c).2.2.2 q hqs with h | h
      · simp at h
      · exact ⟨c, hc, h⟩
  obtain ⟨hlen, hnum⟩ := numberDxfs_spec fs (DxfTable.addSheets {} (calls.map fun c => (localDxfs c).2)).2.formats
    hf (fun q hq => by obtain ⟨c, hc, h⟩ := hfrom q hq; exact hd c hc q h)
  refine ⟨allCodes fs (DxfTable.addSheets {} (calls.map fun c => (localDxfs c).2)).2.formats,
    numFormatLoop_append _ _ _ _ _, ?_, ?_⟩
  · intro i c hc k f hk
    obtain ⟨loc, h1, h2⟩ := (hloc c).2.2.1 k f hk
    obtain ⟨gs, h3, h4⟩ := hget i (localDxfs c).2 (by simp [hc])
    obtain ⟨g, h5, h6⟩ := h4 loc f h2
    obtain ⟨n, h7, h8⟩ := hnum g f h6
    exact ⟨loc, gs, g, n, h1, h3, h5, h7, h8⟩
  · intro g q hq
    have hlt := (List.getElem?_eq_some_iff.mp hq).1
    have hlt' : g < (DxfTable.addSheets {} (calls.map fun c => (localDxfs c).2)).2.formats.length := by
      rw [← hlen]; exact hlt
    obtain ⟨c, hc, hfc⟩ := hfrom _ (List.getElem_mem hlt')
    obtain ⟨n, h7, h8⟩ := hnum g _ (List.getElem?_eq_getElem hlt')
    refine ⟨c, hc, _, hfc, ?_⟩
    have e : q = { (DxfTable.addSheets {} (calls.map fun c => (localDxfs c).2)).2.formats[g] with
        numFormatIndex := n } := by
      have : some q = some _ := hq.symm.trans h7
      exact Option.some.inj this
    rw [e]
    exact ⟨rfl, h8⟩

/-- C51. For any workbook with any cell formats, whose worksheets were given any formats in any sequence of
`add_conditional_format` and `add_table` calls, the styles part is well formed; the number of each cell
format still selects it (`readXf`); the number each of these calls ends up with selects, among the
differential formats, what the format of the call changes (`dxfMeant`); and no number stands for two
different number formats anywhere in the part. Missing: a plain fill with only a foreground colour
(`C51_lone_foreground_counterexample`), a second save (`C51_second_save_counterexample`), texts XML
attributes cannot carry, number format indices of 164 or more. -/
theorem C51_dxfs_read_back_partial (cells : List (List FormatCall)) (calls : List (List (List FormatCall)))
    (hasHyperlink hasComments : Bool)
    (hs : ∀ cs ∈ cells, ∀ c ∈ cs, callSafe c = true)
    (hm : ∀ cs ∈ cells, mixedAutomatic (Format.build cs).fill = false)
    (hh : ∀ cs ∈ cells, (Format.build cs).font.isHyperlink = true → hasHyperlink = true)
    (hd : ∀ sheet ∈ calls, ∀ cs ∈ sheet, ∀ c ∈ cs, callSafe c = true) :
    let fs := cells.map Format.build
    let saved := savedDxfs fs (calls.map (·.map Format.build))
    ∃ root, parseDoc (stylesPart (prepareStyles fs hasHyperlink hasComments) (dxfsTree saved.2)) = some root ∧
      (∀ i, readXf root i = (cells[i]?).map fun cs => formatMeant (Format.build cs)) ∧
      (∀ p ∈ userNumFmts root, ∀ q ∈ userNumFmts root, p.1 = q.1 → p.2 = q.2) ∧
      ∀ (i : Nat) (sheet : List (List FormatCall)), calls[i]? = some sheet →
        ∀ (k : Nat) (cs : List FormatCall), sheet[k]? = some cs →
          ∃ loc gs g, (localDxfs (sheet.map Format.build)).1[k]? = some loc ∧ saved.1[i]? = some gs ∧
            gs[loc]? = some g ∧
            (loneForeground (Format.build cs).fill = false →
              readDxf root g = some (dxfMeant (Format.build cs))) := by
  intro fs saved
  have hgf : ∀ f ∈ fs, f.Good := by
    intro f hf
    obtain ⟨cs, hc, rfl⟩ := List.mem_map.mp hf
    exact Format.Good.build cs (hs cs hc)
  have hgd : ∀ c ∈ calls.map (·.map Format.build), ∀ f ∈ c, f.Good := by
    intro c hc f hf
    obtain ⟨sh, hsh, rfl⟩ := List.mem_map.mp hc
    obtain ⟨cs, hcs, rfl⟩ := List.mem_map.mp hf
    exact Format.Good.build cs (hd sh hsh cs hcs)
  obtain ⟨codes, hpre, hsel, hcodes⟩ := savedDxfs_spec fs (calls.map (·.map Format.build))
    (fun f hf => (hgf f hf).num) (fun c hc f hf => (hgd c hc f hf).num)
  have hsafe : ∀ f ∈ saved.2, attrSafe f.numFormat = true := by
    intro q hq
    obtain ⟨g, hg, e⟩ := List.getElem_of_mem hq
    obtain ⟨c, hc, f, hf, he, _⟩ := hcodes g q (by rw [List.getElem?_eq_getElem hg, e])
    have : q.numFormat = f.numFormat := by rw [he]
    rw [this]; exact (hgd c hc f hf).numSafe
  have hok := styles_tree_ok fs hasHyperlink hasComments (dxfsTree saved.2) (dxfsTree_ok hsafe) hgf
  have hp := C07_part_roundtrip _ hok
  obtain ⟨root, hr, hx⟩ := C14_formats_read_back_partial cells hasHyperlink hasComments (dxfsTree saved.2)
    (dxfsTree_ok hsafe) (dxfsTree_tag _) hs hm hh
  have hroot : root = (stylesTree (prepareStyles fs hasHyperlink hasComments) (dxfsTree saved.2)).toNode :=
    Option.some.inj (hr.symm.trans hp)
  refine ⟨root, hr, hx, ?_, ?_⟩
  · have hall : ∀ p ∈ userNumFmts root, codes[p.1 - 164]? = some p.2 := by
      intro p hpm
      rw [hroot] at hpm
      have hu : userNumFmts (stylesTree (prepareStyles fs hasHyperlink hasComments) (dxfsTree saved.2)).toNode =
          (((((readItems "numFmts".toList "numFmt".toList (toNodes (stylesKids (prepareStyles fs hasHyperlink hasComments) (dxfsTree saved.2)))).getD []).map (readNumFmt ·.1)) ++
      (((readItems "dxfs".toList "dxf".toList (toNodes (stylesKids (prepareStyles fs hasHyperlink hasComments) (dxfsTree saved.2)))).getD []).map fun e =>
        (child "numFmt".toList e.2).bind fun n => readNumFmt n.1)).filterMap id).filter fun p => decide (164 ≤ p.1) := rfl
      rw [hu, styles_numFmts (dxfsTree_tag _), readItems_dxfs] at hpm
      simp only [List.mem_filter, List.mem_filterMap, id, exists_eq_right, decide_eq_true_eq, List.mem_append,
        Option.getD_some] at hpm
      obtain ⟨hpm | hpm, h164⟩ := hpm
      · obtain ⟨e, he, hep⟩ := List.mem_map.mp hpm
        obtain ⟨n, c, h1, h2, h3⟩ := numFmts_pairs _ 0 e he
        rw [hep] at h1
        cases h1
        have hpre' : (prepareStyles fs hasHyperlink hasComments).numFormats <+: codes := hpre
        obtain ⟨r, hr'⟩ := hpre'
        have hlt := (List.getElem?_eq_some_iff.mp h3).1
        rw [← hr', List.getElem?_append_left]
        · simpa using h3
        · simpa using hlt
      · obtain ⟨e, he, hep⟩ := List.mem_map.mp hpm
        obtain ⟨q, hq, rfl⟩ := List.mem_map.mp he
        obtain ⟨g, hg, eg⟩ := List.getElem_of_mem hq
        obtain ⟨c, hc, f, hf, hqf, hsh⟩ := hcodes g q (by rw [List.getElem?_eq_getElem hg, eg])
        have hchild : child "numFmt".toList (treeParts (dxfTree q)).2 =
            if q.numFormatIndex > 0 then some (treeParts (numFmtTree q.numFormatIndex q.numFormat)) else none := by
          rw [child_dxfTree]
          by_cases h : q.numFormatIndex > 0 <;> simp [h]
        rw [hchild] at hep
        by_cases h0 : q.numFormatIndex > 0
        · rw [if_pos h0] at hep
          have : readNumFmt (treeParts (numFmtTree q.numFormatIndex q.numFormat)).1 =
              some (q.numFormatIndex, q.numFormat) := by
            simp [numFmtTree, treeParts, readNumFmt, attrNat, List.lookup, readNat_showNat]
          rw [Option.bind_some, this] at hep
          cases hep
          have hcc := (numShown_cases (hgd c hc f hf).num hsh).2 h164
          have : q.numFormat = f.numFormat := by rw [hqf]
          rw [this]; exact hcc
        · rw [if_neg h0] at hep; cases hep
    intro p hp' q hq' e
    have h1 := hall p hp'
    have h2 := hall q hq'
    rw [e, h2] at h1
    exact (Option.some.inj h1).symm
  · intro i sheet hi k cs hk
    obtain ⟨loc, gs, g, n, h1, h2, h3, h4, h5⟩ := hsel i (sheet.map Format.build) (by simp [hi]) k (Format.build cs)
      (by simp [hk])
    refine ⟨loc, gs, g, h1, h2, h3, ?_⟩
    intro hl
    have hgood := hgd (sheet.map Format.build) (List.mem_map_of_mem (List.mem_of_getElem? hi)) (Format.build cs)
      (List.mem_map_of_mem (List.mem_of_getElem? hk))
    have hrd : readDxf root g = readDxfKids (treeParts (dxfTree { Format.build cs with numFormatIndex := n })).2 := by
      rw [hroot]
      have hu : readDxfs (stylesTree (prepareStyles fs hasHyperlink hasComments) (dxfsTree saved.2)).toNode =
        readItems "dxfs".toList "dxf".toList (toNodes (stylesKids (prepareStyles fs hasHyperlink hasComments) (dxfsTree saved.2))) := rfl
      unfold readDxf
      rw [hu, readItems_dxfs]
      simp only [Option.bind_some, List.getElem?_map]
      rw [h4]
      rfl
    have hk := readDxfKids_dxfTree { Format.build cs with numFormatIndex := n } hgood.fontColor hgood.fg hgood.bg
      hl hgood.borders
    rw [hrd, hk]
    have := (numShown_cases hgood.num h5).1
    dsimp only
    rw [this]
    rfl

/-- C51: on a worksheet and in the workbook, equal formats share a number and different formats never do. -/
theorem C51_shared_numbers (fs : List Format) (calls : List (List Format)) :
    ∀ (i j : Nat) (c d : List Format), calls[i]? = some c → calls[j]? = some d →
      ∀ (k l : Nat) (f g : Format), c[k]? = some f → d[l]? = some g →
        ∃ a b gs hs x y, (localDxfs c).1[k]? = some a ∧ (localDxfs d).1[l]? = some b ∧
          (savedDxfs fs calls).1[i]? = some gs ∧ (savedDxfs fs calls).1[j]? = some hs ∧
          gs[a]? = some x ∧ hs[b]? = some y ∧ (x = y ↔ f = g) := by
  obtain ⟨hinv, _, hget, _⟩ := DxfTable.addSheets_spec (calls.map fun c => (localDxfs c).2) DxfTable.inv_empty
  have hloc := fun c => DxfTable.addAll_spec c DxfTable.inv_empty
  intro i j c d hi hj k l f g hk hl
  obtain ⟨a, a1, a2⟩ := (hloc c).2.2.1 k f hk
  obtain ⟨b, b1, b2⟩ := (hloc d).2.2.1 l g hl
  obtain ⟨gs, h3, h4⟩ := hget i (localDxfs c).2 (by simp [hi])
  obtain ⟨hs, h5, h6⟩ := hget j (localDxfs d).2 (by simp [hj])
  obtain ⟨x, x1, x2⟩ := h4 a f a2
  obtain ⟨y, y1, y2⟩ := h6 b g b2
  refine ⟨a, b, gs, hs, x, y, a1, b1, h3, h5, x1, y1, ?_, ?_⟩
  · intro e
    subst e
    rw [x2] at y2
    exact Option.some.inj y2
  · intro e
    subst e
    rw [← hinv.keys] at x2 y2
    have := (lookup_of_get hinv.tbl x2).symm.trans (lookup_of_get hinv.tbl y2)
    exact Option.some.inj this

/-- F72: a plain fill with only a foreground colour, which fills a cell, gives no colour in a table or a
conditional format. -/
theorem C51_lone_foreground_counterexample :
    let f := Format.build [.setForegroundColor .red]
    (dxfMeant f).fill = .solid (.rgb 0xFF0000) ∧
    ∃ root, parseDoc (stylesPart (prepareStyles [{}] false false) (dxfsTree (savedDxfs [{}] [[f]]).2)) = some root ∧
      (readXf root 0).map (·.fill) = some .none ∧ (readDxf root 0).map (·.fill) = some (.solid .auto) := by
  refine ⟨by decide +kernel, _, C07_part_roundtrip _ (by decide +kernel), by decide +kernel, by decide +kernel⟩

/-- F84: a save gives the number formats of differential formats numbers that stay with them. When a cell
gets a new number format before the next save, the same number stands for two number formats. -/
theorem C51_second_save_counterexample :
    let f := Format.build [.setNumFormat "0.0".toList]
    let g := Format.build [.setNumFormat "0.00000".toList]
    let first := DxfTable.save {} [{}] [[f]]
    let second := first.2.save [{}, g] [[f]]
    ∃ root, parseDoc (stylesPart (prepareStyles [{}, g] false false) (dxfsTree second.2.formats)) = some root ∧
      userNumFmts root = [(164, "0.00000".toList), (164, "0.0".toList)] := by
  refine ⟨_, C07_part_roundtrip _ (by decide +kernel), by decide +kernel⟩

/-- Two worksheets; the second one uses a number format of a cell, a number format of its own and a border. -/
example :
    let f := Format.build [.setBold, .setFontColor .red, .setNumFormat "0.0".toList]
    let g := Format.build [.setNumFormat "0.00".toList, .setBackgroundColor .yellow]
    let h := Format.build [.setBorder .thin, .setBorderColor .blue, .setItalic]
    let cell := Format.build [.setNumFormat "0.00".toList]
    savedDxfs [{}, cell] [[f, h, f], [h, g, f]] =
      ([[0, 1], [1, 2, 0]], [{ f with numFormatIndex := 165 }, h, { g with numFormatIndex := 164 }]) ∧
    (localDxfs [f, h, f]).1 = [0, 1, 0] ∧
    loneForeground f.fill = false ∧ loneForeground g.fill = false ∧ loneForeground h.fill = false := by
  decide +kernel

end Verif
