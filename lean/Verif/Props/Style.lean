import Verif.Lemmas.StylePart
import Verif.Lemmas.StyleCalls
import Verif.Props.Xml
/-!
C14: every format the user builds is what a reader of the styles part sees under its number.
-/
set_option linter.unusedSimpArgs false
namespace Verif
open Spec

/-- What the setters guarantee. -/
structure Format.Good (f : Format) : Prop where
  fontColor : f.font.color.ok = true
  fg : f.fill.foregroundColor.ok = true
  bg : f.fill.backgroundColor.ok = true
  borders : f.borders.colorsOk = true
  align : f.alignment.ok = true
  num : f.numFormatIndex < 164
  numSafe : attrSafe f.numFormat = true
  font : f.font.safe = true

theorem color_ok_of_valid {c : Color} (h : c.isValid = true) : c.ok = true := by simp [Color.ok, h]

theorem builtIn_safe : ∀ e ∈ builtInNumFormats, attrSafe e.2 = true := by decide +kernel

theorem lookup_mem {α β : Type} [DecidableEq α] {l : List (α × β)} {k : α} {v : β}
    (h : l.lookup k = some v) : (k, v) ∈ l := by
  induction l with
  | nil => simp at h
  | cons p l ih =>
    by_cases e : k = p.1
    · subst e; simp [List.lookup] at h; subst h; simp
    · have hb : (k == p.1) = false := by simpa using e
      simp only [List.lookup, hb] at h
      exact List.mem_cons_of_mem _ (ih h)

theorem Format.Good.new : Format.Good {} :=
  ⟨by decide, by decide, by decide, by decide, by decide, by decide, by decide, by decide⟩

theorem Format.Good.apply {f : Format} (h : f.Good) (c : FormatCall) (hc : callSafe c = true) :
    (f.apply c).Good := by
  obtain ⟨h1, h2, h3, h4, h5, h6, h7, h8⟩ := h
  have hf := h8
  simp only [Font.safe, Bool.and_eq_true] at hf
  have hb := h4
  simp only [Border.colorsOk, Bool.and_eq_true] at hb
  have ha := h5
  simp only [Alignment.ok, Bool.and_eq_true] at ha
  have ht : (Color.theme 10 0).ok = true := by decide
  cases c with
  | setNumFormat s => exact ⟨h1, h2, h3, h4, h5, h6, hc, h8⟩
  | setNumFormatIndex n =>
    refine ⟨h1, h2, h3, h4, h5, of_decide_eq_true hc, ?_, h8⟩
    show attrSafe ((builtInNumFormats.lookup n).getD f.numFormat) = true
    cases hl : builtInNumFormats.lookup n with
    | none => exact h7
    | some s => exact builtIn_safe _ (lookup_mem hl)
  | setFontColor c =>
    simp only [Format.apply]; split
    · rename_i hv
      exact ⟨color_ok_of_valid hv, h2, h3, h4, h5, h6, h7, h8⟩
    · exact ⟨h1, h2, h3, h4, h5, h6, h7, h8⟩
  | setFontName s =>
    refine ⟨h1, h2, h3, h4, h5, h6, h7, ?_⟩
    simp only [Format.apply, Format.onFont, Font.safe, Bool.and_eq_true]
    refine ⟨⟨hc, hf.1.2⟩, ?_⟩
    split
    · decide
    · exact hf.2
  | setFontSize s =>
    refine ⟨h1, h2, h3, h4, h5, h6, h7, ?_⟩
    simp only [Format.apply, Format.onFont, Font.safe, Bool.and_eq_true]
    exact ⟨⟨hf.1.1, hc⟩, hf.2⟩
  | setFontScheme s =>
    refine ⟨h1, h2, h3, h4, h5, h6, h7, ?_⟩
    simp only [Format.apply, Format.onFont, Font.safe, Bool.and_eq_true]
    exact ⟨hf.1, hc⟩
  | setAlign a =>
    refine ⟨h1, h2, h3, h4, ?_, h6, h7, h8⟩
    simp only [Format.apply, Format.onAlign, Alignment.ok, Bool.and_eq_true]
    obtain ⟨⟨ha1, ha2⟩, ha3⟩ := ha
    cases a <;> dsimp only <;> refine ⟨⟨?_, ?_⟩, ha3⟩ <;> first | assumption | simp
  | setRotation r =>
    simp only [Format.apply]
    repeat' split
    all_goals exact ⟨h1, h2, h3, h4, h5, h6, h7, h8⟩
  | setReadingDirection n =>
    simp only [Format.apply]
    split
    · exact ⟨h1, h2, h3, h4, h5, h6, h7, h8⟩
    · refine ⟨h1, h2, h3, h4, ?_, h6, h7, h8⟩
      simp only [Format.onAlign, Alignment.ok, Bool.and_eq_true]
      exact ⟨ha.1, decide_eq_true (by omega)⟩
  | setBackgroundColor c =>
    simp only [Format.apply]; split
    · rename_i hv
      exact ⟨h1, h2, color_ok_of_valid hv, h4, h5, h6, h7, h8⟩
    · exact ⟨h1, h2, h3, h4, h5, h6, h7, h8⟩
  | setForegroundColor c =>
    simp only [Format.apply]; split
    · rename_i hv
      exact ⟨h1, color_ok_of_valid hv, h3, h4, h5, h6, h7, h8⟩
    · exact ⟨h1, h2, h3, h4, h5, h6, h7, h8⟩
  | setBorderColor c =>
    simp only [Format.apply]; split
    · rename_i hv
      have hv := color_ok_of_valid hv
      refine ⟨h1, h2, h3, ?_, h5, h6, h7, h8⟩
      simp [Format.onBorder, Border.colorsOk, hv, hb]
    · exact ⟨h1, h2, h3, h4, h5, h6, h7, h8⟩
  | setBorderTopColor c =>
    simp only [Format.apply]; split
    · rename_i hv
      have hv := color_ok_of_valid hv
      refine ⟨h1, h2, h3, ?_, h5, h6, h7, h8⟩
      simp [Format.onBorder, Border.colorsOk, hv, hb]
    · exact ⟨h1, h2, h3, h4, h5, h6, h7, h8⟩
  | setBorderBottomColor c =>
    simp only [Format.apply]; split
    · rename_i hv
      have hv := color_ok_of_valid hv
      refine ⟨h1, h2, h3, ?_, h5, h6, h7, h8⟩
      simp [Format.onBorder, Border.colorsOk, hv, hb]
    · exact ⟨h1, h2, h3, h4, h5, h6, h7, h8⟩
  | setBorderLeftColor c =>
    simp only [Format.apply]; split
    · rename_i hv
      have hv := color_ok_of_valid hv
      refine ⟨h1, h2, h3, ?_, h5, h6, h7, h8⟩
      simp [Format.onBorder, Border.colorsOk, hv, hb]
    · exact ⟨h1, h2, h3, h4, h5, h6, h7, h8⟩
  | setBorderRightColor c =>
    simp only [Format.apply]; split
    · rename_i hv
      have hv := color_ok_of_valid hv
      refine ⟨h1, h2, h3, ?_, h5, h6, h7, h8⟩
      simp [Format.onBorder, Border.colorsOk, hv, hb]
    · exact ⟨h1, h2, h3, h4, h5, h6, h7, h8⟩
  | setBorderDiagonalColor c =>
    simp only [Format.apply]; split
    · rename_i hv
      have hv := color_ok_of_valid hv
      refine ⟨h1, h2, h3, ?_, h5, h6, h7, h8⟩
      simp [Format.onBorder, Border.colorsOk, hv, hb]
    · exact ⟨h1, h2, h3, h4, h5, h6, h7, h8⟩
  | setHyperlink =>
    refine ⟨ht, h2, h3, h4, h5, h6, h7, ?_⟩
    simp only [Format.apply, Format.onFont, Font.safe, Bool.and_eq_true]
    exact ⟨hf.1, by decide⟩
  | _ => exact ⟨h1, h2, h3, h4, h5, h6, h7, h8⟩

theorem Format.Good.build (cs : List FormatCall) (h : ∀ c ∈ cs, callSafe c = true) :
    (Format.build cs).Good := by
  have : ∀ (cs : List FormatCall) (f : Format), f.Good → (∀ c ∈ cs, callSafe c = true) →
      (cs.foldl Format.apply f).Good := by
    intro cs
    induction cs with
    | nil => intro f hf _; exact hf
    | cons c r ih =>
      intro f hf hcs
      exact ih _ (hf.apply c (hcs c List.mem_cons_self)) fun x hx => hcs x (List.mem_cons_of_mem _ hx)
  exact this cs {} Format.Good.new h

theorem fixFill_colors (f : Fill) (h1 : f.foregroundColor.ok = true) (h2 : f.backgroundColor.ok = true) :
    (fixFill f).foregroundColor.ok = true ∧ (fixFill f).backgroundColor.ok = true := by
  have hd : Color.default.ok = true := by decide
  unfold fixFill
  dsimp only
  repeat' split
  all_goals simp_all

theorem fixFill_mixed (f : Fill) (h : mixedAutomatic f = false) : mixedAutomatic (fixFill f) = false := by
  unfold fixFill
  dsimp only
  repeat' split
  all_goals simp_all [mixedAutomatic]

theorem decide_of_iff {p : Prop} [Decidable p] {b : Bool} (h : p ↔ b = true) : decide p = b := by
  cases b <;> simp_all

theorem readXf_styles (fs : List Format) (d : StyleData) (dxfs : Tree) (hF : StyleFacts fs d)
    (hg : ∀ f ∈ fs, f.Good) (hm : ∀ f ∈ fs, mixedAutomatic f.fill = false)
    (hh : ∀ f ∈ fs, f.font.isHyperlink = true → d.hasHyperlinkStyle = true)
    (hd : treeTag dxfs = "dxfs".toList) (i : Nat) :
    readXf (stylesTree d dxfs).toNode i = (fs[i]?).map formatMeant := by
  have e0 : (stylesTree d dxfs).toNode = .elem "styleSheet".toList
    [("xmlns".toList, "http://schemas.openxmlformats.org/spreadsheetml/2006/main".toList)]
    (toNodes (stylesKids d dxfs)) := rfl
  obtain ⟨f1, f2, f3, f4, f5, f6⟩ := @styles_find d dxfs
  -- the lists
  have hfonts := readItems_node "fonts".toList "font".toList (stylesKids d dxfs) _ _ f1 (by
      intro t ht
      rcases List.mem_append.mp ht with ht | ht
      · obtain ⟨p, _, rfl⟩ := List.mem_map.mp ht; rfl
      · unfold optTree at ht; split at ht
        · simp at ht; subst ht; rfl
        · simp at ht) (by
      rw [hF.fontCount]
      simp only [List.length_append, List.length_map]
      unfold optTree; split <;> simp)
  have hfills := readItems_node "fills".toList "fill".toList (stylesKids d dxfs) _ _ f2 (by
      intro t ht
      rcases List.mem_append.mp ht with ht | ht
      · simp only [List.mem_cons, List.not_mem_nil, or_false] at ht
        rcases ht with rfl | rfl <;> rfl
      · obtain ⟨p, _, rfl⟩ := List.mem_map.mp ht; exact fillTree_tag _) (by
      rw [hF.fillCount]; simp [fixedFills])
  have hborders := readItems_node "borders".toList "border".toList (stylesKids d dxfs) _ _ f3 (by
      intro t ht
      obtain ⟨p, _, rfl⟩ := List.mem_map.mp ht; rfl) (by
      rw [hF.borderCount]; simp)
  have hxfs := readItems_node "cellXfs".toList "xf".toList (stylesKids d dxfs) _ _ f5 (by
      intro t ht
      obtain ⟨p, _, rfl⟩ := List.mem_map.mp ht; exact xfTree_tag _) (by simp)
  have hone : ∀ b : Bool, (if b = true then "2".toList else "1".toList) = showNat (if b then 2 else 1) := by
    intro b; cases b <;> decide +kernel
  have hsx : readItems "cellStyleXfs".toList "xf".toList (toNodes (stylesKids d dxfs)) =
      some ((([.empty "xf".toList
      [("numFmtId".toList, "0".toList), ("fontId".toList, "0".toList),
       ("fillId".toList, "0".toList), ("borderId".toList, "0".toList)]] ++
     optTree d.hasHyperlinkStyle (hyperlinkStyleXf (hyperlinkFontId d.xfFormats 0 0))) : List Tree).map
      treeParts) := by
    refine readItems_node _ _ _ (if d.hasHyperlinkStyle then 2 else 1) _ ?_ ?_ ?_
    · rw [f4, cellStyleXfsTree, hone]
    · intro t ht
      rcases List.mem_append.mp ht with ht | ht
      · simp at ht; subst ht; rfl
      · unfold optTree at ht; split at ht
        · simp at ht; subst ht; rfl
        · simp at ht
    · unfold optTree; split <;> simp
  have hst : readItems "cellStyles".toList "cellStyle".toList (toNodes (stylesKids d dxfs)) =
      some ((optTree d.hasHyperlinkStyle
      (.empty "cellStyle".toList
        [("name".toList, "Hyperlink".toList), ("xfId".toList, "1".toList),
         ("builtinId".toList, "8".toList)]) ++
     ([.empty "cellStyle".toList
        [("name".toList, "Normal".toList), ("xfId".toList, "0".toList),
         ("builtinId".toList, "0".toList)]] : List Tree)).map treeParts) := by
    refine readItems_node _ _ _ (if d.hasHyperlinkStyle then 2 else 1) _ ?_ ?_ ?_
    · rw [f6, cellStylesTree, hone]
    · intro t ht
      rcases List.mem_append.mp ht with ht | ht
      · unfold optTree at ht; split at ht
        · simp at ht; subst ht; rfl
        · simp at ht
      · simp at ht; subst ht; rfl
    · unfold optTree; split <;> simp
  have hnf := styles_numFmts (d := d) hd
  rw [e0]
  unfold readXf
  simp only [ne_eq, not_true_eq_false, if_false]
  rw [hfonts, hfills, hborders, hsx, hxfs, hst]
  dsimp only
  rw [hnf]
  have hlen : d.xfFormats.length = fs.length := by
    have := congrArg List.length hF.same
    simpa using this
  have hmap := congrArg (fun l => l[i]?) hF.same
  simp only [List.getElem?_map] at hmap
  rw [List.getElem?_map, List.getElem?_map]
  cases hq : d.xfFormats[i]? with
  | none =>
    rw [hq] at hmap
    cases hf : fs[i]? with
    | none => rfl
    | some f => rw [hf] at hmap; cases hmap
  | some q =>
    rw [hq] at hmap
    cases hf : fs[i]? with
    | none => rw [hf] at hmap; cases hmap
    | some f =>
      rw [hf] at hmap
      simp only [Option.map_some, Option.some.injEq] at hmap
      simp only [Option.map_some, Option.bind_some]
      have hqm : q ∈ d.xfFormats := List.mem_of_getElem? hq
      have hfm : f ∈ fs := List.mem_of_getElem? hf
      have hgood := hg f hfm
      -- fields of q
      have q1 : q.fmt.font = f.font := by
        have := congrArg (fun x : Format => x.font) hmap
        exact this
      have q2 : q.fmt.fill = fixFill f.fill := by
        have := congrArg (fun x : Format => x.fill) hmap
        exact this
      have q3 : q.fmt.borders = f.borders := by
        have := congrArg (fun x : Format => x.borders) hmap
        exact this
      have q4 : q.fmt.alignment = f.alignment := by
        have := congrArg (fun x : Format => x.alignment) hmap
        exact this
      have q5 : q.fmt.locked = f.locked := by
        have := congrArg (fun x : Format => x.locked) hmap
        exact this
      have q6 : q.fmt.hidden = f.hidden := by
        have := congrArg (fun x : Format => x.hidden) hmap
        exact this
      have q7 : q.fmt.quotePrefix = f.quotePrefix := by
        have := congrArg (fun x : Format => x.quotePrefix) hmap
        exact this
      have q8 : q.fmt.checkbox = f.checkbox := by
        have := congrArg (fun x : Format => x.checkbox) hmap
        exact this
      obtain ⟨xp1, xp2⟩ := xf_parts q
      obtain ⟨a1, a2, a3, a4, a5, a6⟩ := xfAttrs_lookup q
      rw [xp1, a1, a2, a3, a4, a5]
      dsimp only
      rw [readNum_shown, hF.num i f q hf hq]
      -- the font
      have r1 : (((d.xfFormats.filter (·.hasFont)).map (fun p => fontTree p.fmt.font false) ++
          optTree d.hasComments commentFontTree).map treeParts)[q.fontIndex]?.bind
            (fun e => readFont e.2) = some (fontMeant f.font) := by
        have hx := hF.font q hqm
        rw [List.getElem?_map] at hx
        cases hy : (d.xfFormats.filter (·.hasFont))[q.fontIndex]? with
        | none => rw [hy] at hx; cases hx
        | some p =>
          rw [hy] at hx
          simp only [Option.map_some, Option.some.injEq] at hx
          rw [List.map_append, List.getElem?_append_left (by
            obtain ⟨hl, _⟩ := List.getElem?_eq_some_iff.mp hy; simpa using hl)]
          rw [List.getElem?_map, List.getElem?_map, hy]
          simp only [Option.map_some, Option.bind_some]
          rw [hx, q1, readFont_fontTree _ hgood.fontColor]
      have r2 : ((([defaultFillTree "none".toList, defaultFillTree "gray125".toList] ++
          (d.xfFormats.filter (·.hasFill)).map (fun p => fillTree p.fmt.fill false)) : List Tree).map
            treeParts)[q.fillIndex]?.bind (fun e => readFill e.2) = some (fillMeant f.fill) := by
        have hx := hF.fill q hqm
        have hfix := fixFill_colors f.fill hgood.fg hgood.bg
        have hmx := fixFill_mixed f.fill (hm f hfm)
        rw [← fillShown_fixFill, ← q2]
        rw [← q2] at hfix hmx
        have hi2 : q.fillIndex = 0 ∨ q.fillIndex = 1 ∨ 2 ≤ q.fillIndex := by omega
        rcases hi2 with h0 | h1 | h2
        · rw [h0] at hx ⊢
          simp only [fixedFills, List.cons_append, List.getElem?_cons_zero, Option.some.injEq] at hx
          rw [← hx]
          simp only [List.cons_append, List.map_cons, List.getElem?_cons_zero, Option.bind_some]
          decide +kernel
        · rw [h1] at hx ⊢
          simp only [fixedFills, List.cons_append, List.getElem?_cons_succ, List.getElem?_cons_zero,
            Option.some.injEq] at hx
          rw [← hx]
          simp only [List.cons_append, List.map_cons, List.getElem?_cons_succ, List.getElem?_cons_zero,
            Option.bind_some]
          decide +kernel
        · obtain ⟨m, hm'⟩ : ∃ m, q.fillIndex = m + 2 := ⟨q.fillIndex - 2, by omega⟩
          rw [hm'] at hx ⊢
          simp only [fixedFills, List.cons_append, List.nil_append, List.getElem?_cons_succ,
            List.getElem?_map] at hx
          simp only [List.cons_append, List.nil_append, List.map_cons, List.getElem?_cons_succ,
            List.getElem?_map]
          cases hy : (d.xfFormats.filter (·.hasFill))[m]? with
          | none => rw [hy] at hx; cases hx
          | some p =>
            rw [hy] at hx
            simp only [Option.map_some, Option.some.injEq] at hx
            simp only [Option.map_some, Option.bind_some]
            rw [hx, readFill_fillTree _ hfix.1 hfix.2 hmx]
      have r3 : (((d.xfFormats.filter (·.hasBorder)).map (fun p => borderTree p.fmt.borders false)).map
            treeParts)[q.borderIndex]?.bind (fun e => readBorder e.1 e.2) =
          some (borderMeant f.borders) := by
        have hx := hF.border q hqm
        rw [List.getElem?_map] at hx
        cases hy : (d.xfFormats.filter (·.hasBorder))[q.borderIndex]? with
        | none => rw [hy] at hx; cases hx
        | some p =>
          rw [hy] at hx
          simp only [Option.map_some, Option.some.injEq] at hx
          rw [List.getElem?_map, List.getElem?_map, hy]
          simp only [Option.map_some, Option.bind_some]
          rw [hx, q3, readBorder_borderTree _ hgood.borders]
      rw [r1, r2, r3, q1]
      have r4 : (if (if f.font.isHyperlink = true then 1 else 0) <
          ((([.empty "xf".toList
      [("numFmtId".toList, "0".toList), ("fontId".toList, "0".toList),
       ("fillId".toList, "0".toList), ("borderId".toList, "0".toList)]] ++
     optTree d.hasHyperlinkStyle (hyperlinkStyleXf (hyperlinkFontId d.xfFormats 0 0))) : List Tree).map
      treeParts).length then
          readStyleName (if f.font.isHyperlink = true then 1 else 0) ((optTree d.hasHyperlinkStyle
      (.empty "cellStyle".toList
        [("name".toList, "Hyperlink".toList), ("xfId".toList, "1".toList),
         ("builtinId".toList, "8".toList)]) ++
     ([.empty "cellStyle".toList
        [("name".toList, "Normal".toList), ("xfId".toList, "0".toList),
         ("builtinId".toList, "0".toList)]] : List Tree)).map treeParts) else none) =
          some (if f.font.isHyperlink then "Hyperlink".toList else "Normal".toList) := by
        have := hh f hfm
        cases h1 : f.font.isHyperlink with
        | true =>
          rw [h1] at this
          rw [this rfl]
          rw [if_pos (by simp [optTree])]
          decide +kernel
        | false =>
          rw [if_pos (by simp)]
          cases d.hasHyperlinkStyle <;> decide +kernel
      rw [r4]
      dsimp only
      have hal : readAlign (Option.map Prod.fst (child "alignment".toList (treeParts (xfTree q)).2)
          |>.getD []) = alignMeant f.alignment := by
        rw [xp2]
        cases ha : q.fmt.alignment.hasAlignment with
        | true =>
          simp only [true_and, if_true, Option.map_some, Option.getD_some]
          rw [q4, readAlign_alignmentTree _ hgood.align]
        | false =>
          have : (Option.map Prod.fst (if false = true ∧ "alignment".toList = "alignment".toList then
              some (treeParts (alignmentTree q.fmt.alignment))
            else if q.fmt.hasProtection = true ∧ "alignment".toList = "protection".toList then
              some (treeParts (protectionTree q.fmt))
            else if q.fmt.checkbox = true ∧ "alignment".toList = "extLst".toList then
              some (treeParts xfExtTree) else none)).getD [] = [] := by simp
          rw [this, readAlign_nil _ (q4 ▸ ha)]
      have hpr : child "protection".toList (treeParts (xfTree q)).2 =
          if q.fmt.hasProtection then some (treeParts (protectionTree q.fmt)) else none := by
        rw [xp2]; simp
      have hck : (child "extLst".toList (treeParts (xfTree q)).2).isSome = f.checkbox := by
        rw [xp2, q8]; cases f.checkbox <;> simp
      have hlk : decide (List.lookup "locked".toList ((Option.map Prod.fst
          (child "protection".toList (treeParts (xfTree q)).2)).getD []) ≠ some "0".toList) = f.locked ∧
          decide (List.lookup "hidden".toList ((Option.map Prod.fst
          (child "protection".toList (treeParts (xfTree q)).2)).getD []) = some "1".toList) = f.hidden := by
        rw [hpr]
        have hp := protection_lookup q.fmt
        rw [q5, q6] at hp
        cases hpp : q.fmt.hasProtection with
        | true =>
          simp only [if_true, Option.map_some, Option.getD_some]
          constructor
          · exact decide_of_iff hp.1
          · exact decide_of_iff hp.2
        | false =>
          simp only [Format.hasProtection, q5, q6, Bool.or_eq_false_iff, Bool.not_eq_eq_eq_not,
            Bool.not_false] at hpp
          rw [hpp.1, hpp.2]
          simp
      have hqp : decide (List.lookup "quotePrefix".toList (xfAttrs q) = some "1".toList) =
          f.quotePrefix := by
        rw [q7] at a6; exact decide_of_iff a6
      rw [hal, hck, hlk.1, hlk.2, hqp]
      rfl

/-- The styles part read back, for good formats. -/
theorem styles_tree_ok (fs : List Format) (hasHyperlink hasComments : Bool)
    (dxfs : Tree) (hd : treeOk dxfs = true) (hg : ∀ f ∈ fs, f.Good) :
    treeOk (stylesTree (prepareStyles fs hasHyperlink hasComments) dxfs) = true := by
  have hF := prepareStyles_facts fs hasHyperlink hasComments fun f hf => (hg f hf).num
  have hsame := hF.same
  have hback : ∀ q ∈ (prepareStyles fs hasHyperlink hasComments).xfFormats, ∃ f ∈ fs,
      q.fmt.font = f.font ∧ q.fmt.numFormat = f.numFormat := by
    intro q hq
    have : ({ q.fmt with numFormatIndex := 0 } : Format) ∈
        (prepareStyles fs hasHyperlink hasComments).xfFormats.map
          (fun p => ({ p.fmt with numFormatIndex := 0 } : Format)) := List.mem_map_of_mem hq
    rw [hsame] at this
    obtain ⟨f, hf, e⟩ := List.mem_map.mp this
    exact ⟨f, hf, (congrArg (fun x : Format => x.font) e).symm,
      (congrArg (fun x : Format => x.numFormat) e).symm⟩
  refine stylesTree_ok _ dxfs hd ?_ ?_
  · intro q hq
    obtain ⟨f, hf, e, _⟩ := hback q hq
    rw [e]; exact (hg f hf).font
  · intro s hs'
    have := numFormats_from _ _ _ _ s hs'
    rcases this with h | ⟨p, hp, rfl⟩
    · simp at h
    · have hb := indexLoop_map (fun p => p.fmt.borders) PFormat.setBorderIndex (fun p => p.fmt.numFormat)
        (fun _ _ _ => rfl) (prepareFills (prepareFonts (fs.map fun f => { fmt := f })).1).1 [] 0
      have hb2 := indexLoop_map (fun p => p.fmt.fill) PFormat.setFillIndex (fun p => p.fmt.numFormat)
        (fun _ _ _ => rfl) ((prepareFonts (fs.map fun f => { fmt := f })).1.map fun p =>
          { p with fmt := { p.fmt with fill := fixFill p.fmt.fill } })
          [({}, 0), ({ pattern := .gray125 }, 1)] 2
      have hb3 := indexLoop_map (fun p => p.fmt.font) PFormat.setFontIndex (fun p => p.fmt.numFormat)
        (fun _ _ _ => rfl) (fs.map fun f => { fmt := f }) [] 0
      have hx : p.fmt.numFormat ∈ (prepareBorders (prepareFills (prepareFonts (fs.map fun f =>
          { fmt := f })).1).1).1.map (fun p => p.fmt.numFormat) := List.mem_map_of_mem hp
      unfold prepareBorders at hx
      rw [hb] at hx
      unfold prepareFills at hx
      rw [hb2] at hx
      simp only [List.map_map] at hx
      have hb3' : (prepareFonts (fs.map fun f => { fmt := f })).1.map
          ((fun p : PFormat => p.fmt.numFormat) ∘ fun p =>
            { p with fmt := { p.fmt with fill := fixFill p.fmt.fill } }) =
          (fs.map fun f => ({ fmt := f } : PFormat)).map (fun p => p.fmt.numFormat) := hb3
      rw [hb3'] at hx
      simp only [List.map_map, List.mem_map, Function.comp] at hx
      obtain ⟨f, hf, e⟩ := hx
      rw [← e]; exact (hg f hf).numSafe

theorem styles_read_back (fs : List Format) (hasHyperlink hasComments : Bool)
    (dxfs : Tree) (hd : treeOk dxfs = true) (hdt : treeTag dxfs = "dxfs".toList)
    (hg : ∀ f ∈ fs, f.Good) (hm : ∀ f ∈ fs, mixedAutomatic f.fill = false)
    (hh : ∀ f ∈ fs, f.font.isHyperlink = true → hasHyperlink = true) :
    ∃ root, parseDoc (stylesPart (prepareStyles fs hasHyperlink hasComments) dxfs) = some root ∧
      ∀ i, readXf root i = (fs[i]?).map formatMeant := by
  have hF := prepareStyles_facts fs hasHyperlink hasComments fun f hf => (hg f hf).num
  refine ⟨_, C07_part_roundtrip _ (styles_tree_ok fs hasHyperlink hasComments dxfs hd hg), ?_⟩
  intro i
  exact readXf_styles fs _ dxfs hF hg hm hh hdt i

/-- C14. The styles part written for any formats, built by any calls, is well formed and a reader
finds under number `i` exactly what format number `i` means; no other number exists. Missing: a solid
fill with one automatic and one other colour (`C14_automatic_solid_fill`), attribute texts XML cannot
carry; the formats of conditional formats and tables are not read. -/
theorem C14_formats_read_back_partial (user : List (List FormatCall)) (hasHyperlink hasComments : Bool)
    (dxfs : Tree) (hd : treeOk dxfs = true) (hdt : treeTag dxfs = "dxfs".toList)
    (hs : ∀ cs ∈ user, ∀ c ∈ cs, callSafe c = true)
    (hm : ∀ cs ∈ user, mixedAutomatic (Format.build cs).fill = false)
    (hh : ∀ cs ∈ user, (Format.build cs).font.isHyperlink = true → hasHyperlink = true) :
    ∃ root, parseDoc (stylesPart (prepareStyles (user.map Format.build) hasHyperlink hasComments) dxfs) =
        some root ∧
      ∀ i, readXf root i = (user[i]?).map fun cs => formatMeant (Format.build cs) := by
  obtain ⟨root, h1, h2⟩ := styles_read_back (user.map Format.build) hasHyperlink hasComments dxfs hd hdt
    (by
      intro f hf
      obtain ⟨cs, hc, rfl⟩ := List.mem_map.mp hf
      exact Format.Good.build cs (hs cs hc))
    (by
      intro f hf
      obtain ⟨cs, hc, rfl⟩ := List.mem_map.mp hf
      exact hm cs hc)
    (by
      intro f hf
      obtain ⟨cs, hc, rfl⟩ := List.mem_map.mp hf
      exact hh cs hc)
  refine ⟨root, h1, fun i => ?_⟩
  rw [h2 i, List.getElem?_map, Option.map_map]; rfl

/-- C14. A cell's format looks as the calls that built it ask: for every property the last call that
says something about it decides. Missing: format strings set after a format index
(`C14_number_format_ignored`), `unset_hyperlink_style` (`C14_unset_hyperlink`), and what
`C14_formats_read_back_partial` leaves out. -/
theorem C14_calls_read_back_partial (user : List (List FormatCall)) (hasHyperlink hasComments : Bool)
    (dxfs : Tree) (hd : treeOk dxfs = true) (hdt : treeTag dxfs = "dxfs".toList)
    (hs : ∀ cs ∈ user, ∀ c ∈ cs, callSafe c = true)
    (hm : ∀ cs ∈ user, mixedAutomatic (fillAsked cs) = false)
    (hn : ∀ cs ∈ user, numOrderOk false cs = true)
    (hu : ∀ cs ∈ user, .unsetHyperlinkStyle ∉ cs)
    (hh : ∀ cs ∈ user, .setHyperlink ∈ cs → hasHyperlink = true) :
    ∃ root, parseDoc (stylesPart (prepareStyles (user.map Format.build) hasHyperlink hasComments) dxfs) =
        some root ∧
      ∀ i, readXf root i = (user[i]?).map lookAsked := by
  obtain ⟨root, h1, h2⟩ := C14_formats_read_back_partial user hasHyperlink hasComments dxfs hd hdt hs
    (fun cs hc => by rw [build_fill]; exact hm cs hc)
    (fun cs hc hl => by
      apply hh cs hc
      rw [build_font cs (hu cs hc)] at hl
      have : lastOf (fun
        | .setHyperlink => some true
        | .unsetHyperlinkStyle => some false
        | _ => none) false cs = true := hl
      unfold lastOf at this
      cases hx : (cs.filterMap (fun
        | .setHyperlink => some true
        | .unsetHyperlinkStyle => some false
        | _ => none)).getLast? with
      | none => rw [hx] at this; cases this
      | some b =>
        rw [hx] at this
        simp only [Option.getD_some] at this
        subst this
        obtain ⟨c, hcm, hcs⟩ := List.mem_filterMap.mp (List.mem_of_getLast? hx)
        cases c <;> simp at hcs
        exact hcm)
  refine ⟨root, h1, fun i => ?_⟩
  rw [h2 i]
  cases hi : user[i]? with
  | none => rfl
  | some cs =>
    have hc := List.mem_of_getElem? hi
    simp only [Option.map_some]
    rw [formatMeant_build cs (hn cs hc) (hu cs hc)]

/-- C14. The lists of distinct fonts, fills and borders that the styles part holds, and the format
strings of `numFmts`, for any formats: no entry repeats, the counts written are the lengths, the
indices of a format select its own font, fill (after the solid fill's colours are put in Excel's
order) and borders, the first two fills are the predefined ones, and an own format string at position
`k` has number `164 + k`. Missing: `set_num_format_index` with 164 to 255, which is a number of an own
format string. -/
theorem C14_indices_partial (fs : List Format) (hasHyperlink hasComments : Bool)
    (hi : ∀ f ∈ fs, f.numFormatIndex < 164) :
    let d := prepareStyles fs hasHyperlink hasComments
    ∃ fonts fills borders,
      fonts = (d.xfFormats.filter (·.hasFont)).map (·.fmt.font) ∧
      fills = fixedFills ++ (d.xfFormats.filter (·.hasFill)).map (·.fmt.fill) ∧
      borders = (d.xfFormats.filter (·.hasBorder)).map (·.fmt.borders) ∧
      fonts.Nodup ∧ fills.Nodup ∧ borders.Nodup ∧ d.numFormats.Nodup ∧
      d.fontCount = fonts.length ∧ d.fillCount = fills.length ∧ d.borderCount = borders.length ∧
      fills.take 2 = [{}, { pattern := .gray125 }] ∧
      d.xfFormats.length = fs.length ∧
      ∀ (j : Nat) f, fs[j]? = some f → ∃ q : PFormat, d.xfFormats[j]? = some q ∧
        fonts[q.fontIndex]? = some f.font ∧ fills[q.fillIndex]? = some (fixFill f.fill) ∧
        borders[q.borderIndex]? = some f.borders ∧
        numShown d.numFormats q.fmt.numFormatIndex = numMeant f := by
  intro d
  have hF := prepareStyles_facts fs hasHyperlink hasComments hi
  have hlen : d.xfFormats.length = fs.length := by
    have := congrArg List.length hF.same
    simpa using this
  refine ⟨_, _, _, rfl, rfl, rfl, hF.fontNodup, hF.fillNodup, hF.borderNodup, hF.numNodup,
    hF.fontCount, hF.fillCount, hF.borderCount, rfl, hlen, ?_⟩
  intro j f hf
  have hj : j < d.xfFormats.length := by
    rw [hlen]; exact (List.getElem?_eq_some_iff.mp hf).1
  have hq : d.xfFormats[j]? = some d.xfFormats[j] := List.getElem?_eq_getElem hj
  have hm := List.mem_of_getElem? hq
  have hs := congrArg (fun l => l[j]?) hF.same
  simp only [List.getElem?_map, hf, hq, d, Option.map_some] at hs
  have hs := Option.some.inj hs
  have e1 := congrArg (fun x : Format => x.font) hs
  have e2 := congrArg (fun x : Format => x.fill) hs
  have e3 := congrArg (fun x : Format => x.borders) hs
  have e1 : d.xfFormats[j].fmt.font = f.font := e1
  have e2 : d.xfFormats[j].fmt.fill = fixFill f.fill := e2
  have e3 : d.xfFormats[j].fmt.borders = f.borders := e3
  refine ⟨_, hq, ?_, ?_, ?_, hF.num j f _ hf hq⟩
  · rw [← e1]; exact hF.font _ hm
  · rw [← e2]; exact hF.fill _ hm
  · rw [← e3]; exact hF.border _ hm

/-- An empty `dxfs` element, /repo/src/styles.rs:799-807. -/
def noDxfs : Tree := .empty "dxfs".toList [("count".toList, "0".toList)]

/-- Formats that meet the hypotheses: a hyperlink, a bordered number, a pattern. -/
def demoFormats : List (List FormatCall) :=
  [[], [.setHyperlink], [.setNumFormat "0.000".toList, .setBorder .thin, .setBorderLeftColor (.rgb 0xA0B1C2)],
   [.setPattern .darkGrid, .setBackgroundColor .red, .setForegroundColor (.theme 4 2), .setRotation (-30)]]

example : treeOk noDxfs = true ∧ treeTag noDxfs = "dxfs".toList ∧
    (∀ cs ∈ demoFormats, ∀ c ∈ cs, callSafe c = true) ∧
    (∀ cs ∈ demoFormats, mixedAutomatic (fillAsked cs) = false) ∧
    (∀ cs ∈ demoFormats, numOrderOk false cs = true) ∧
    (∀ cs ∈ demoFormats, .unsetHyperlinkStyle ∉ cs) ∧
    (lookAsked (demoFormats[3]?.getD [])).fill =
      .pattern "darkGrid".toList (.theme 4 60) (.rgb 0xFF0000) := by decide +kernel

/-- C14 is false for a format string set after a format index: the index wins (finding F68). -/
theorem C14_number_format_ignored (n : Nat) (s : Str) (hn : 0 < n ∧ n < 164) (hs : attrSafe s = true)
    (hne : s ≠ []) :
    ∃ root, parseDoc (stylesPart (prepareStyles
        [Format.build [.setNumFormatIndex n, .setNumFormat s]] false false) noDxfs) = some root ∧
      (readXf root 0).map (·.num) = some (.builtIn n) ∧
      numAsked [.setNumFormatIndex n, .setNumFormat s] = .code s := by
  obtain ⟨root, h1, h2⟩ := C14_formats_read_back_partial [[.setNumFormatIndex n, .setNumFormat s]]
    false false noDxfs (by decide +kernel) (by decide +kernel)
    (by intro cs hc c hcc; simp at hc; subst hc; simp at hcc; rcases hcc with rfl | rfl <;> simp [callSafe, hs, hn.2])
    (by intro cs hc; simp at hc; subst hc; rfl)
    (by intro cs hc; simp at hc; subst hc; intro h; cases h)
  refine ⟨root, h1, ?_, ?_⟩
  · rw [h2]
    have : n ≠ 0 := by omega
    simp [formatMeant, numMeant, Format.build, Format.apply, this]
  · simp [numAsked, hne]

/-- C14 is false for `unset_hyperlink_style`: it makes any format a hyperlink format (finding F70). -/
theorem C14_unset_hyperlink :
    (formatMeant (Format.build [.unsetHyperlinkStyle])).style = "Hyperlink".toList ∧
    (lookAsked [.unsetHyperlinkStyle]).style = "Normal".toList ∧
    ∃ root, parseDoc (stylesPart (prepareStyles [Format.build [.unsetHyperlinkStyle]] true false)
        noDxfs) = some root ∧ (readXf root 0).map (·.style) = some "Hyperlink".toList := by
  refine ⟨by decide +kernel, by decide +kernel, ?_⟩
  obtain ⟨root, h1, h2⟩ := C14_formats_read_back_partial [[.unsetHyperlinkStyle]]
    true false noDxfs (by decide +kernel) (by decide +kernel) (by decide +kernel) (by decide +kernel)
    (by decide +kernel)
  refine ⟨root, h1, ?_⟩
  rw [h2]
  decide +kernel

/-- C14 is false for a solid fill with one automatic colour: asking for the automatic (white) background
of a solid fill with a red foreground gives a black cell (finding F69). -/
theorem C14_automatic_solid_fill :
    let cs : List FormatCall :=
      [.setPattern .solid, .setBackgroundColor .automatic, .setForegroundColor .red]
    (lookAsked cs).fill = .solid .auto ∧
    ∃ root, parseDoc (stylesPart (prepareStyles [Format.build cs] false false) noDxfs) = some root ∧
      (readXf root 0).map (·.fill) = some (.solid (.rgb 0)) := by
  refine ⟨by decide +kernel, ?_⟩
  refine ⟨_, C07_part_roundtrip _ (by decide +kernel), ?_⟩
  decide +kernel

theorem hasAlignment_apply (a : Alignment) (h : a.hasAlignment = true) : a.applyAlignment = true := by
  simp only [Alignment.hasAlignment, Alignment.applyAlignment, Bool.or_eq_true, decide_eq_true_eq,
    Bool.not_eq_true', decide_eq_false_iff_not, Bool.or_eq_false_iff] at h ⊢
  simp at h ⊢
  grind

/-- C14, flags: every cell format element flags each part that is not the default. -/
theorem C14_applied (p : PFormat) : allApplied (treeParts (xfTree p)) := by
  obtain ⟨h1, h2⟩ := xf_parts p
  obtain ⟨a1, a2, a3, a4, a5, -⟩ := xfAttrs_lookup p
  unfold allApplied
  rw [h1, a1, a2, a3, a4, a5, h2, h2]
  refine ⟨?_, ?_, ?_, ?_, ?_, ?_⟩ <;> intro h <;>
    simp only [flagSet, xfAttrs, List.lookup_append, lookup_optAttr]
  · have : p.fmt.numFormatIndex > 0 := by simp at h; omega
    simp [List.lookup, this]
  · have h' : p.fontIndex > 0 := by simp at h; omega
    cases hh : p.fmt.font.isHyperlink
    · left; simp [List.lookup, h']
    · right; simp
  · have : p.fillIndex > 0 := by simp at h; omega
    simp [List.lookup, this]
  · have : p.borderIndex > 0 := by simp at h; omega
    simp [List.lookup, this]
  · have : p.fmt.alignment.hasAlignment = true := by
      by_cases hc : p.fmt.alignment.hasAlignment = true
      · exact hc
      · simp [hc] at h
    simp [List.lookup, hasAlignment_apply _ this]
  · have : p.fmt.hasProtection = true := by
      by_cases hc : p.fmt.hasProtection = true
      · exact hc
      · simp [hc] at h
    simp [List.lookup, this]

/-- Non-trivial case: a bold, wrapped, unlocked format in which every flag but the fill flag is needed. -/
example : let p : PFormat := { fmt := Format.build [.setBold, .setTextWrap, .setUnlocked, .setNumFormatIndex 3], fontIndex := 1, borderIndex := 2 }
    flagSet "applyFont".toList (treeParts (xfTree p)).1 ∧ ¬ flagSet "applyFill".toList (treeParts (xfTree p)).1 := by
  unfold flagSet; decide +kernel

end Verif
