import Verif.Spec.Style
import Verif.Lemmas.Xml
import Verif.Props.Notes
/-!
Reading back the pieces of a styles part.
-/
set_option linter.unusedSimpArgs false
namespace Verif
open Spec

/-! ### Children -/

theorem toNodes_append (a b : List Tree) : toNodes (a ++ b) = toNodes a ++ toNodes b := by
  induction a with
  | nil => rfl
  | cons t r ih => simp [toNodes, ih]

theorem child_append (t : Text) (a b : List Node) :
    child t (a ++ b) = (child t a).or (child t b) := by
  induction a with
  | nil => simp [child]
  | cons n r ih =>
    cases n with
    | elem t' as ks =>
      simp only [List.cons_append, child]
      split <;> simp [ih]
    | text s => simp only [List.cons_append, child, ih]

theorem child_optTree_empty (t tag : Text) (b : Bool) (as : Attrs) :
    child t (toNodes (optTree b (.empty tag as))) =
      if b = true ∧ tag = t then some (as, []) else none := by
  cases b <;> simp [optTree, toNodes, Tree.toNode, child]

theorem childrenAll_append (t : Text) (a b : List Node) :
    childrenAll t (a ++ b) =
      (childrenAll t a).bind fun x => (childrenAll t b).map (x ++ ·) := by
  induction a with
  | nil => cases h : childrenAll t b <;> simp [childrenAll, h]
  | cons n r ih =>
    cases n with
    | elem t' as ks =>
      simp only [List.cons_append, childrenAll]
      split
      · rw [ih]
        cases childrenAll t r <;> cases childrenAll t b <;> simp
      · simp
    | text s => simp [childrenAll]

/-- The attributes and children of a tree. -/
def treeParts : Tree → NodeAttrs × List Node
  | .node _ as ks => (as, toNodes ks)
  | .empty _ as => (as, [])
  | .data _ d as => (as, if d = [] then [] else [.text (excelControlEscape d)])

/-- The tag of a tree. -/
def treeTag : Tree → Text
  | .node t _ _ => t
  | .empty t _ => t
  | .data t _ _ => t

theorem toNode_parts (t : Tree) : t.toNode = .elem (treeTag t) (treeParts t).1 (treeParts t).2 := by
  cases t <;> rfl

theorem childrenAll_toNodes (tag : Text) (ts : List Tree) (h : ∀ t ∈ ts, treeTag t = tag) :
    childrenAll tag (toNodes ts) = some (ts.map treeParts) := by
  induction ts with
  | nil => rfl
  | cons t r ih =>
    simp only [toNodes, toNode_parts t, childrenAll, h t List.mem_cons_self, if_true,
      ih fun x hx => h x (List.mem_cons_of_mem _ hx), Option.map_some, List.map_cons]

/-! ### Colours -/

theorem hexDigit_hexDigitUpper {d : Nat} (h : d < 16) : hexDigit? (hexDigitUpper d) = some d := by
  revert d; decide

theorem numeral_hex06 {n : Nat} (h : n ≤ 0xFFFFFF) : numeral hexDigit? 16 (hex06 n) = some n := by
  have e : ∀ x, hexDigit? (hexDigitUpper (x % 16)) = some (x % 16) :=
    fun x => hexDigit_hexDigitUpper (Nat.mod_lt _ (by decide))
  simp only [numeral, hex06, List.cons_ne_nil, if_false, List.foldlM_cons, List.foldlM_nil, e,
    Option.map_some, Option.bind_eq_bind, Option.bind_some, Option.pure_def, Option.some.injEq,
    reduceCtorEq]
  omega

/-- Theme colours the setters accept, and the hyperlink colour. -/
def Color.ok (c : Color) : Bool := c.isValid || c = .theme 10 0

theorem readColor_rgb {s : Text} {n : Nat} (hs : s.length = 6) (h : numeral hexDigit? 16 s = some n) :
    readColor [("rgb".toList, "FF".toList ++ s)] = some (.rgb n) := by
  simp [readColor, List.lookup, hs, h]

theorem readTint_theme : ∀ c ≤ 10, ∀ s ≤ 5,
    (themeTint c s = [] ∧ shadePercent c s = 0) ∨
    (themeTint c s ≠ [] ∧ readTint (themeTint c s) = some (shadePercent c s)) := by decide +kernel

theorem readColor_attributes {c : Color} (h : c.ok = true) (h1 : c ≠ .default) (h2 : c ≠ .automatic) :
    readColor c.attributes = some (colorMeant c) := by
  cases c with
  | rgb n =>
    have hn : n ≤ 0xFFFFFF := by simpa [Color.ok, Color.isValid] using h
    exact readColor_rgb (by simp [Color.rgbHexValue, hex06]) (numeral_hex06 hn)
  | theme c s =>
    have hcs : c ≤ 10 ∧ s ≤ 5 := by
      simp only [Color.ok, Color.isValid, Bool.or_eq_true, Bool.and_eq_true, decide_eq_true_eq,
        Color.theme.injEq] at h
      omega
    simp only [Color.attributes, colorMeant]
    rcases readTint_theme c hcs.1 s hcs.2 with ⟨e1, e2⟩ | ⟨e1, e2⟩
    · rw [if_pos e1, e2]
      simp [readColor, List.lookup, readNat_showNat]
    · rw [if_neg e1]
      simp [readColor, List.lookup, readNat_showNat, e2]
  | default => exact absurd rfl h1
  | automatic => exact absurd rfl h2
  | _ => rfl

/-! ### Fonts -/

theorem child_fontColor (t : Text) (c : Color) :
    child t (toNodes (fontColorTrees c false)) =
      if t = "color".toList then
        (match c with
         | .automatic => none
         | .default => some ([("theme".toList, "1".toList)], [])
         | c => some (c.attributes, []))
      else none := by
  cases c <;> simp [fontColorTrees, optTree, toNodes, Tree.toNode, child, eq_comm]

theorem child_single_empty (t tag : Text) (as : Attrs) :
    child t (toNodes [.empty tag as]) = if tag = t then some (as, []) else none := by
  simp [toNodes, Tree.toNode, child]

theorem underline_tree (u : FormatUnderline) : underlineTree u = .empty "u".toList
    (match u with
    | .double => [("val".toList, "double".toList)]
    | .singleAccounting => [("val".toList, "singleAccounting".toList)]
    | .doubleAccounting => [("val".toList, "doubleAccounting".toList)]
    | _ => []) := rfl

theorem vertAlign_tree (s : FormatScript) : vertAlignTree s = .empty "vertAlign".toList
    (match s with
    | .superscript => [("val".toList, "superscript".toList)]
    | .subscript => [("val".toList, "subscript".toList)]
    | .none => []) := rfl

/-- The children of a font element, by tag. -/
theorem child_fontTree (f : Font) (t : Text) : child t (treeParts (fontTree f false)).2 =
    (if f.bold = true ∧ "b".toList = t then some ([], []) else none).or
    ((if f.italic = true ∧ "i".toList = t then some ([], []) else none).or
    ((if f.strikethrough = true ∧ "strike".toList = t then some ([], []) else none).or
    ((if decide (f.underline ≠ .none) = true ∧ "u".toList = t then some ((match f.underline with
      | .double => [("val".toList, "double".toList)]
      | .singleAccounting => [("val".toList, "singleAccounting".toList)]
      | .doubleAccounting => [("val".toList, "doubleAccounting".toList)]
      | _ => []), []) else none).or
    ((if decide (f.script ≠ .none) = true ∧ "vertAlign".toList = t then some ((match f.script with
      | .superscript => [("val".toList, "superscript".toList)]
      | .subscript => [("val".toList, "subscript".toList)]
      | .none => []), []) else none).or
    ((if "sz".toList = t then some ([("val".toList, f.size)], []) else none).or
    ((if t = "color".toList then
        (match f.color with
         | .automatic => none
         | .default => some ([("theme".toList, "1".toList)], [])
         | c => some (c.attributes, []))
      else none).or
    ((if "name".toList = t then some ([("val".toList, f.name)], []) else none).or
    ((if decide (f.family > 0) = true ∧ "family".toList = t then
        some ([("val".toList, showNat f.family)], []) else none).or
    ((if decide (f.charset > 0) = true ∧ "charset".toList = t then
        some ([("val".toList, showNat f.charset)], []) else none).or
    (if decide (f.scheme ≠ []) = true ∧ "scheme".toList = t then
        some ([("val".toList, f.scheme)], []) else none)))))))))) := by
  simp only [fontTree, treeParts, toNodes_append, underline_tree, vertAlign_tree, child_append,
    child_optTree_empty, child_fontColor, child_single_empty, Bool.not_false, if_false,
    Bool.false_eq_true, Option.or_assoc, true_and]

theorem readFont_fontTree (f : Font) (hc : f.color.ok = true) :
    readFont (treeParts (fontTree f false)).2 = some (fontMeant f) := by
  have key := child_fontTree f
  generalize (treeParts (fontTree f false)).2 = ks at key
  have h1 : child "b".toList ks = if f.bold then some ([], []) else none := by rw [key]; simp
  have h2 : child "i".toList ks = if f.italic then some ([], []) else none := by rw [key]; simp
  have h3 : child "strike".toList ks = if f.strikethrough then some ([], []) else none := by
    rw [key]; simp
  have h4 : (child "u".toList ks).map (fun c => (c.1.lookup "val".toList).getD "single".toList) =
      (fontMeant f).underline := by
    rw [key]; cases hu : f.underline <;> simp [hu, fontMeant, List.lookup]
  have h5 : childVal "vertAlign".toList ks = (fontMeant f).script := by
    unfold childVal
    rw [key]; cases hu : f.script <;> simp [hu, fontMeant, List.lookup]
  have h6 : childVal "sz".toList ks = some f.size := by
    unfold childVal; rw [key]; simp [List.lookup]
  have h7 : childVal "name".toList ks = some f.name := by
    unfold childVal; rw [key]; simp [List.lookup]
  have h8 : ((childVal "family".toList ks).bind readNat).getD 0 = f.family := by
    unfold childVal; rw [key]
    by_cases h : f.family > 0
    · simp [h, List.lookup, readNat_showNat]
    · simp [h]; omega
  have h9 : ((childVal "charset".toList ks).bind readNat).getD 0 = f.charset := by
    unfold childVal; rw [key]
    by_cases h : f.charset > 0
    · simp [h, List.lookup, readNat_showNat]
    · simp [h]; omega
  have h10 : (childVal "scheme".toList ks).getD [] = f.scheme := by
    unfold childVal; rw [key]
    by_cases h : f.scheme = []
    · simp [h]
    · simp [h, List.lookup]
  have h11 : readFontColor ks = some (fontMeant f).color := by
    unfold readFontColor
    have e : child "color".toList ks = match f.color with
         | .automatic => none
         | .default => some ([("theme".toList, "1".toList)], [])
         | c => some (c.attributes, []) := by
      rw [key]; simp
    rw [e]
    unfold fontMeant
    dsimp only
    by_cases hd : f.color = .default
    · rw [hd]; decide +kernel
    · by_cases ha : f.color = .automatic
      · rw [ha]; simp [colorMeant]
      · have := readColor_attributes hc hd ha
        generalize f.color = c at hd ha this
        cases c <;> first | exact absurd rfl hd | exact absurd rfl ha | simpa using this
  unfold readFont
  rw [h6, h7, h11]
  simp only [h1, h2, h3, h4, h5, h8, h9, h10, Option.some.injEq]
  simp only [fontMeant]
  congr 1
  · cases f.bold <;> rfl
  · cases f.italic <;> rfl
  · cases f.strikethrough <;> rfl

/-! ### Fills -/

theorem readFill_default (p : FormatPattern) : readFill (treeParts (defaultFillTree p.text)).2 =
    some (if p = .none then .none else if p = .solid then .solid .auto
      else .pattern (patternName p) .auto .auto) := by
  cases p <;> decide +kernel

theorem patternText (p : FormatPattern) : p.text = patternName p := by cases p <;> rfl

/-- What a fill element shows. -/
def fillShown (f : Fill) : FillSeen :=
  if f.pattern = .none then .none
  else if f.pattern = .solid then
    .solid (if f.backgroundColor ≠ .default ∧ f.foregroundColor ≠ .default then
      colorMeant f.backgroundColor else colorMeant f.foregroundColor)
  else .pattern (patternName f.pattern) (colorMeant f.foregroundColor) (colorMeant f.backgroundColor)

theorem colorMeant_ne_indexed (c : Color) (n : Nat) : colorMeant c ≠ .indexed n := by
  cases c <;> simp [colorMeant]

theorem readFill_parts (t : Text) (fg bg : List Tree) (x y : ColorSeen)
    (hx : readFillColor "fgColor".toList (toNodes (fg ++ bg)) = some x)
    (hy : readFillColor "bgColor".toList (toNodes (fg ++ bg)) = some y) :
    readFill (treeParts (.node "fill".toList []
      [.node "patternFill".toList [("patternType".toList, t)] (fg ++ bg)])).2 =
      some (if t = "none".toList then .none
        else if t = "solid".toList then .solid x else .pattern t x y) := by
  simp only [treeParts, toNodes, Tree.toNode, readFill, child, if_true, Option.bind_some, hx, hy,
    List.lookup_cons, beq_self_eq_true]

theorem fillColor_fg (b : Bool) (fg bg : Attrs) :
    readFillColor "fgColor".toList (toNodes (optTree b (.empty "fgColor".toList fg) ++
      [.empty "bgColor".toList bg])) =
    if b then (readColor fg).map (fun x => if x = .indexed 64 then .auto else x) else some .auto := by
  cases b <;> simp [readFillColor, toNodes_append, optTree, toNodes, Tree.toNode, child]

theorem fillColor_bg (b : Bool) (fg bg : Attrs) :
    readFillColor "bgColor".toList (toNodes (optTree b (.empty "fgColor".toList fg) ++
      [.empty "bgColor".toList bg])) =
    (readColor bg).map (fun x => if x = .indexed 64 then .auto else x) := by
  cases b <;> simp [readFillColor, toNodes_append, optTree, toNodes, Tree.toNode, child]

theorem readFill_fillTree (f : Fill) (h1 : f.foregroundColor.ok = true)
    (h2 : f.backgroundColor.ok = true) (h3 : mixedAutomatic f = false) :
    readFill (treeParts (fillTree f false)).2 = some (fillShown f) := by
  unfold fillTree
  split
  · rename_i h
    obtain ⟨hp, hb, hf⟩ := h
    rw [readFill_default, if_neg hp]
    have e1 : colorMeant f.foregroundColor = .auto := by rcases hf with h | h <;> rw [h] <;> rfl
    have e2 : colorMeant f.backgroundColor = .auto := by rcases hb with h | h <;> rw [h] <;> rfl
    simp only [fillShown, if_neg hp, e1, e2, ite_self]
  · rename_i h
    have good : ∀ c : Color, c.ok = true → c ≠ .default → c ≠ .automatic →
        (readColor c.attributes).map (fun x => if x = .indexed 64 then .auto else x) =
          some (colorMeant c) := by
      intro c hc hd ha
      rw [readColor_attributes hc hd ha]
      simp [colorMeant_ne_indexed]
    have h64 : (readColor [("indexed".toList, "64".toList)]).map
        (fun x => if x = .indexed 64 then ColorSeen.auto else x) = some .auto := by decide +kernel
    obtain ⟨fg, bg, pat⟩ := f
    dsimp only at h1 h2 h3 h ⊢
    have hb : (if bg = Color.default || bg = Color.automatic then
          Tree.empty "bgColor".toList [("indexed".toList, "64".toList)]
        else .empty "bgColor".toList
          (if (!false && pat = .solid && bg ≠ .default && fg ≠ .default) = true
            then fg.attributes else bg.attributes)) =
        .empty "bgColor".toList (if bg = Color.default || bg = Color.automatic then
          [("indexed".toList, "64".toList)] else
          (if (!false && pat = .solid && bg ≠ .default && fg ≠ .default) = true
            then fg.attributes else bg.attributes)) := by
      split <;> rfl
    rw [hb]
    simp only [Bool.false_and, Bool.false_eq_true, if_false]
    let sw : Bool := !false && pat = .solid && bg ≠ .default && fg ≠ .default
    rw [readFill_parts _ _ _ (if sw then colorMeant bg else colorMeant fg)
      (if sw then colorMeant fg else colorMeant bg)]
    · have hn : ∀ p : FormatPattern, (p.text = "none".toList ↔ p = .none) := by
        intro p; cases p <;> decide +kernel
      have hs : ∀ p : FormatPattern, (p.text = "solid".toList ↔ p = .solid) := by
        intro p; cases p <;> decide +kernel
      simp only [hn, hs, fillShown, Option.some.injEq]
      by_cases e1 : pat = .none
      · simp [e1]
      · by_cases e2 : pat = .solid
        · subst e2
          by_cases b1 : bg = .default <;> by_cases f1 : fg = .default <;> simp [sw, b1, f1]
        · simp only [if_neg e1, if_neg e2, patternText, sw, e2]
          simp
    · rw [fillColor_fg]
      by_cases f1 : fg = .default
      · subst f1; simp [sw, colorMeant]
      · by_cases f2 : fg = .automatic
        · subst f2
          by_cases e2 : pat = .solid
          · subst e2
            by_cases b1 : bg = .default
            · subst b1; simp at h
            · by_cases b2 : bg = .automatic
              · subst b2; simp at h
              · simp [mixedAutomatic, b1, b2] at h3
          · simp [sw, e2, colorMeant]
        · simp only [ne_eq, f1, f2, not_false_eq_true, decide_true, Bool.and_self, if_true]
          by_cases hsw : sw = true
          · have hsw' := hsw
            simp only [sw, Bool.not_false, Bool.true_and, Bool.and_eq_true, decide_eq_true_eq] at hsw'
            have b2 : bg ≠ .automatic := by
              intro e; subst e; simp [mixedAutomatic, hsw', f1, f2] at h3
            have := good bg h2 hsw'.1.2 b2
            simp only [sw] at hsw
            simp only [ne_eq, f1, not_false_eq_true, decide_true, Bool.and_true] at hsw
            simp only [sw, ne_eq, f1, not_false_eq_true, decide_true, Bool.and_true, hsw, if_true]
            exact this
          · have := good fg h1 f1 f2
            simp only [sw] at hsw
            simp only [ne_eq, f1, not_false_eq_true, decide_true, Bool.and_true] at hsw
            simp only [sw, ne_eq, f1, not_false_eq_true, decide_true, Bool.and_true, hsw, if_false]
            exact this
    · rw [fillColor_bg]
      by_cases b1 : bg = .default
      · subst b1; simpa [sw, colorMeant] using h64
      · by_cases b2 : bg = .automatic
        · subst b2
          by_cases e2 : pat = .solid
          · subst e2
            by_cases f1 : fg = .default
            · subst f1; simp at h
            · by_cases f2 : fg = .automatic
              · subst f2; simp at h
              · simp [mixedAutomatic, f1, f2] at h3
          · simpa [sw, e2, colorMeant] using h64
        · simp only [b1, b2, decide_false, Bool.or_self, Bool.false_eq_true, if_false]
          by_cases hsw : sw = true
          · have hsw' := hsw
            simp only [sw, Bool.not_false, Bool.true_and, Bool.and_eq_true, decide_eq_true_eq] at hsw'
            have f2 : fg ≠ .automatic := by
              intro e; subst e; simp [mixedAutomatic, hsw', b1, b2] at h3
            have := good fg h1 hsw'.2 f2
            simp only [sw] at hsw
            simp only [sw, hsw, if_true]
            exact this
          · have := good bg h2 b1 b2
            simp only [sw] at hsw
            simp only [sw, hsw, if_false]
            exact this



theorem fillMeant_other {f : Fill} (h1 : f.pattern ≠ .none) (h2 : f.pattern ≠ .solid) :
    fillMeant f =
      .pattern (patternName f.pattern) (colorMeant f.foregroundColor) (colorMeant f.backgroundColor) := by
  obtain ⟨fg, bg, pat⟩ := f
  unfold fillMeant
  dsimp only at h1 h2 ⊢
  generalize decide (bg ≠ Color.default) = x
  generalize decide (fg ≠ Color.default) = y
  cases pat <;> first | exact absurd rfl h1 | exact absurd rfl h2 | rfl

theorem fillShown_fixFill (f : Fill) : fillShown (fixFill f) = fillMeant f := by
  by_cases h1 : f.pattern = .none
  · obtain ⟨fg, bg, pat⟩ := f
    dsimp only at h1
    subst h1
    by_cases hb : bg = .default <;> by_cases hf : fg = .default <;>
      simp [fillShown, fixFill, fillMeant, hb, hf]
  · by_cases h2 : f.pattern = .solid
    · obtain ⟨fg, bg, pat⟩ := f
      dsimp only at h2
      subst h2
      by_cases hb : bg = .default <;> by_cases hf : fg = .default <;>
        simp [fillShown, fixFill, fillMeant, hb, hf]
    · rw [fillMeant_other h1 h2]
      have e : fixFill f = f := by simp [fixFill, h1, h2]
      rw [e]
      simp [fillShown, h1, h2]

/-! ### Borders -/

theorem borderText (b : FormatBorder) : b.text = borderName b := by cases b <;> rfl

theorem subBorder_tag (tag : Text) (s : FormatBorder) (c : Color) :
    treeTag (subBorderTree tag s c) = tag := by
  unfold subBorderTree; split <;> rfl

theorem child_trees (t : Text) (ts : List Tree) :
    child t (toNodes ts) = (ts.find? fun x => decide (treeTag x = t)).map treeParts := by
  induction ts with
  | nil => rfl
  | cons x r ih =>
    simp only [toNodes, toNode_parts x, child, List.find?_cons]
    by_cases h : treeTag x = t
    · simp [h]
    · simp [h, ih]

theorem side_parts (s : FormatBorder) (c : Color) (hc : c.ok = true) (tag : Text) :
    (match (treeParts (subBorderTree tag s c)).1.lookup "style".toList with
    | none => some none
    | some st =>
      match child "color".toList (treeParts (subBorderTree tag s c)).2 with
      | none => none
      | some x => (readColor x.1).map fun y => some (st, y)) = some (sideMeant s c) := by
  unfold subBorderTree sideMeant
  by_cases h : s = .none
  · simp [h, treeParts]
  · rw [if_neg h, if_neg h]
    simp only [treeParts, List.lookup_cons, beq_self_eq_true, toNodes, Tree.toNode, child, if_true]
    by_cases hd : c = .default
    · subst hd
      rw [if_neg (by simp)]
      have : readColor [("auto".toList, "1".toList)] = some .auto := by decide +kernel
      rw [this, borderText]; rfl
    · by_cases ha : c = .automatic
      · subst ha
        rw [if_neg (by simp)]
        have : readColor [("auto".toList, "1".toList)] = some .auto := by decide +kernel
        rw [this, borderText]; rfl
      · rw [if_pos ⟨hd, ha⟩, readColor_attributes hc hd ha, borderText]; rfl

/-- All colours of a border are good. -/
def Border.colorsOk (b : Border) : Bool :=
  b.leftColor.ok && b.rightColor.ok && b.topColor.ok && b.bottomColor.ok && b.diagonalColor.ok

theorem readBorder_borderTree (b : Border) (h : b.colorsOk = true) :
    readBorder (treeParts (borderTree b false)).1 (treeParts (borderTree b false)).2 =
      some (borderMeant b) := by
  simp only [Border.colorsOk, Bool.and_eq_true] at h
  have hside : ∀ t : Text, ∀ s c, c.ok = true →
      child t (treeParts (borderTree b false)).2 = some (treeParts (subBorderTree t s c)) →
      readSide t (treeParts (borderTree b false)).2 = some (sideMeant s c) := by
    intro t s c hc e
    unfold readSide
    rw [e]
    exact side_parts s c hc t
  have hc : ∀ t, child t (treeParts (borderTree b false)).2 =
      (([subBorderTree "left".toList b.leftStyle b.leftColor,
      subBorderTree "right".toList b.rightStyle b.rightColor,
      subBorderTree "top".toList b.topStyle b.topColor,
      subBorderTree "bottom".toList b.bottomStyle b.bottomColor,
      subBorderTree "diagonal".toList b.diagonalStyle b.diagonalColor]).find?
        fun x => decide (treeTag x = t)).map treeParts := by
    intro t
    rw [← child_trees]; rfl
  have e1 := hside _ b.leftStyle b.leftColor h.1.1.1.1 (show child "left".toList _ = some _ by
    rw [hc]; simp only [List.find?_cons, subBorder_tag, decide_true, Option.map_some])
  have e2 := hside _ b.rightStyle b.rightColor h.1.1.1.2 (show child "right".toList _ = some _ by
    rw [hc]; simp only [List.find?_cons, subBorder_tag, decide_true, Option.map_some,
      show decide ("left".toList = "right".toList) = false by decide])
  have e3 := hside _ b.topStyle b.topColor h.1.1.2 (show child "top".toList _ = some _ by
    rw [hc]; simp only [List.find?_cons, subBorder_tag, decide_true, Option.map_some,
      show decide ("left".toList = "top".toList) = false by decide,
      show decide ("right".toList = "top".toList) = false by decide])
  have e4 := hside _ b.bottomStyle b.bottomColor h.1.2 (show child "bottom".toList _ = some _ by
    rw [hc]; simp only [List.find?_cons, subBorder_tag, decide_true, Option.map_some,
      show decide ("left".toList = "bottom".toList) = false by decide,
      show decide ("right".toList = "bottom".toList) = false by decide,
      show decide ("top".toList = "bottom".toList) = false by decide])
  have e5 := hside _ b.diagonalStyle b.diagonalColor h.2 (show child "diagonal".toList _ = some _ by
    rw [hc]; simp only [List.find?_cons, subBorder_tag, decide_true, Option.map_some,
      show decide ("left".toList = "diagonal".toList) = false by decide,
      show decide ("right".toList = "diagonal".toList) = false by decide,
      show decide ("top".toList = "diagonal".toList) = false by decide,
      show decide ("bottom".toList = "diagonal".toList) = false by decide])
  unfold readBorder
  rw [e1, e2, e3, e4, e5]
  unfold borderMeant
  simp only [Option.some.injEq, BorderSeen.mk.injEq, true_and]
  have hd : (treeParts (borderTree b false)).1 = diagonalAttrs b.diagonalType := rfl
  rw [hd]
  generalize b.diagonalType = d
  clear e1 e2 e3 e4 e5 hside hc hd h
  revert d
  intro d
  cases d <;> exact ⟨by decide +kernel, by decide +kernel⟩

/-! ### Alignment and protection -/

/-- The alignments the setter can store. -/
def Alignment.ok (a : Alignment) : Bool :=
  decide (a.horizontal ∈ [FormatAlign.general, .center, .centerAcross, .distributed, .fill, .justify,
    .left, .right]) &&
  decide (a.vertical ∈ [FormatAlign.general, .bottom, .top, .verticalCenter, .verticalDistributed,
    .verticalJustify]) &&
  decide (a.readingDirection ≤ 2)

theorem lookup_optAttr (b : Bool) (n v k : Text) :
    (optAttr b n v).lookup k = if b = true ∧ k = n then some v else none := by
  cases b with
  | false => simp [optAttr]
  | true =>
    by_cases h : k = n
    · simp [optAttr, h]
    · have hb : (k == n) = false := by simpa using h
      simp [optAttr, List.lookup, hb, h]

/-- The attributes of the alignment element. -/
theorem alignment_parts (a : Alignment) (k : Text) :
    (treeParts (alignmentTree a)).1.lookup k =
    ((horizontalAttrs a.fixedHorizontal).lookup k).or
    (((verticalAttrs a.vertical).lookup k).or
    ((if decide (a.rotation ≠ 0) = true ∧ k = "textRotation".toList then some (showNat a.rotation) else none).or
    ((if decide (a.indent ≠ 0) = true ∧ k = "indent".toList then some (showNat a.indent) else none).or
    ((if a.textWrap = true ∧ k = "wrapText".toList then some "1".toList else none).or
    ((if (a.shrink && !(a.textWrap || a.fixedHorizontal = .fill || a.fixedHorizontal = .justify ||
        a.fixedHorizontal = .distributed)) = true ∧ k = "shrinkToFit".toList then some "1".toList
        else none).or
     (if (a.readingDirection > 0 && a.readingDirection ≤ 2 : Bool) = true ∧ k = "readingOrder".toList then
        some (showNat a.readingDirection) else none)))))) := by
  simp only [alignmentTree, treeParts, List.lookup_append, lookup_optAttr, Option.or_assoc]

theorem horizontal_lookup (h : FormatAlign) (k : Text) :
    (horizontalAttrs h).lookup k =
    if k = "horizontal".toList ∧ horizontalName h ≠ "general".toList then some (horizontalName h)
    else none := by
  by_cases hk : k = "horizontal".toList
  · subst hk; cases h <;> decide +kernel
  · have hb : (k == "horizontal".toList) = false := by simpa using hk
    cases h <;> simp only [horizontalAttrs, List.lookup_cons, List.lookup_nil, hb, hk, false_and, if_false]

theorem vertical_lookup (v : FormatAlign) (k : Text) :
    (verticalAttrs v).lookup k =
    if k = "vertical".toList ∧ verticalName v ≠ "bottom".toList then some (verticalName v)
    else none := by
  by_cases hk : k = "vertical".toList
  · subst hk; cases v <;> decide +kernel
  · have hb : (k == "vertical".toList) = false := by simpa using hk
    cases v <;> simp only [verticalAttrs, List.lookup_cons, List.lookup_nil, hb, hk, false_and, if_false]

theorem fixedHorizontal_eq (a : Alignment) (ha : a.ok = true) : a.fixedHorizontal =
    if a.indent ≠ 0 ∧ a.horizontal ∉ [FormatAlign.left, .right, .distributed] ∧
        a.vertical ∉ [FormatAlign.top, .bottom] then .left else a.horizontal := by
  have hv : a.vertical ≠ .distributed := by
    intro e; simp [Alignment.ok, e] at ha
  unfold Alignment.fixedHorizontal
  have : (a.indent > 0 ∧ a.horizontal ≠ .left ∧ a.horizontal ≠ .right ∧ a.horizontal ≠ .distributed ∧
      a.vertical ≠ .top ∧ a.vertical ≠ .bottom ∧ a.vertical ≠ .distributed) ↔
      (a.indent ≠ 0 ∧ a.horizontal ∉ [FormatAlign.left, .right, .distributed] ∧
        a.vertical ∉ [FormatAlign.top, .bottom]) := by
    simp only [List.mem_cons, List.not_mem_nil, or_false, not_or, Nat.pos_iff_ne_zero]
    constructor
    · rintro ⟨a1, a2, a3, a4, a5, a6, a7⟩; exact ⟨a1, ⟨a2, a3, a4⟩, a5, a6⟩
    · rintro ⟨a1, ⟨a2, a3, a4⟩, a5, a6⟩; exact ⟨a1, a2, a3, a4, a5, a6, hv⟩
  by_cases h : a.indent > 0 ∧ a.horizontal ≠ .left ∧ a.horizontal ≠ .right ∧
      a.horizontal ≠ .distributed ∧ a.vertical ≠ .top ∧ a.vertical ≠ .bottom ∧
      a.vertical ≠ .distributed
  · rw [if_pos h, if_pos (this.mp h)]
  · rw [if_neg h, if_neg (fun x => h (this.mpr x))]

theorem readAlign_alignmentTree (a : Alignment) (ha : a.ok = true) :
    readAlign (treeParts (alignmentTree a)).1 = alignMeant a := by
  have key := alignment_parts a
  simp only [horizontal_lookup, vertical_lookup] at key
  have hh := fixedHorizontal_eq a ha
  have hr : a.readingDirection ≤ 2 := by
    simp only [Alignment.ok, Bool.and_eq_true, decide_eq_true_eq] at ha; exact ha.2
  generalize (treeParts (alignmentTree a)).1 = as at key
  unfold readAlign alignMeant
  dsimp only
  rw [← hh]
  generalize a.fixedHorizontal = h at key
  simp only [AlignSeen.mk.injEq]
  refine ⟨?_, ?_, ?_, ?_, ?_, ?_, ?_⟩
  · rw [key]
    by_cases e : horizontalName h = ['g', 'e', 'n', 'e', 'r', 'a', 'l']
    · simp [e]
    · simp [e]
  · rw [key]
    by_cases e : verticalName a.vertical = ['b', 'o', 't', 't', 'o', 'm']
    · simp [e]
    · simp [e]
  · rw [key]
    by_cases e : a.rotation = 0
    · simp [e]
    · simp [e, readNat_showNat]
  · rw [key]
    by_cases e : a.indent = 0
    · simp [e]
    · simp [e, readNat_showNat]
  · rw [key]
    cases a.textWrap <;> simp
  · have k : as.lookup "shrinkToFit".toList =
        if (a.shrink && !(a.textWrap || decide (h = .fill) || decide (h = .justify) ||
          decide (h = .distributed))) = true then some "1".toList else none := by
      rw [key]; simp
    rw [k]
    generalize a.shrink = x
    generalize a.textWrap = y
    clear key k hh hr ha
    revert x y
    cases h <;> decide +kernel
  · rw [key]
    by_cases e : a.readingDirection > 0
    · simp [e, hr, readNat_showNat]
    · simp [e]; omega

theorem readAlign_nil (a : Alignment) (h : a.hasAlignment = false) : readAlign [] = alignMeant a := by
  simp only [Alignment.hasAlignment, Bool.or_eq_false_iff, decide_eq_false_iff_not, ne_eq,
    Decidable.not_not, Bool.not_eq_false', Bool.or_eq_true, decide_eq_true_eq] at h
  obtain ⟨⟨⟨⟨⟨⟨h1, h2⟩, h3⟩, h4⟩, h5⟩, h6⟩, h7⟩ := h
  unfold alignMeant
  rw [h1, h3, h4, h5, h6, h7]
  rcases h2 with h2 | h2 <;> rw [h2] <;> decide +kernel

end Verif
