import Verif.Lemmas.StyleOk
/-!
Reading a format back from the styles part.
-/
set_option linter.unusedSimpArgs false
namespace Verif
open Spec

theorem filter_map_same {κ : Type} (has : PFormat → Bool) (idx : PFormat → Nat) (key : PFormat → κ)
    (xs ys : List PFormat) (h : xs.map (fun p => (has p, idx p, key p)) =
      ys.map (fun p => (has p, idx p, key p))) :
    (xs.filter has).map key = (ys.filter has).map key ∧
    ∀ q ∈ xs, ∃ q' ∈ ys, idx q = idx q' ∧ key q = key q' := by
  induction xs generalizing ys with
  | nil =>
    cases ys with
    | nil => simp
    | cons => simp at h
  | cons x xs ih =>
    cases ys with
    | nil => simp at h
    | cons y ys =>
      simp only [List.map_cons, List.cons.injEq, Prod.mk.injEq] at h
      obtain ⟨⟨h1, h2, h3⟩, h4⟩ := h
      have hi := ih ys h4
      constructor
      · simp only [List.filter_cons, h1]
        split
        · simp [h3, hi.1]
        · exact hi.1
      · intro q hq
        rcases List.mem_cons.mp hq with rfl | hq
        · exact ⟨y, by simp, h2, h3⟩
        · obtain ⟨q', h1, h2⟩ := hi.2 q hq
          exact ⟨q', List.mem_cons_of_mem _ h1, h2⟩

/-- A format with the fill colours filled in and without number format index. -/
def Format.settled (f : Format) : Format := { f with fill := fixFill f.fill, numFormatIndex := 0 }

/-- The first two fills of every styles part. -/
def fixedFills : List Fill := [{}, { pattern := .gray125 }]

/-- What `prepareStyles` computes. -/
structure StyleFacts (fs : List Format) (d : StyleData) : Prop where
  same : d.xfFormats.map (fun p => { p.fmt with numFormatIndex := 0 }) = fs.map Format.settled
  fontCount : d.fontCount = ((d.xfFormats.filter (·.hasFont)).map (·.fmt.font)).length
  fontNodup : ((d.xfFormats.filter (·.hasFont)).map (·.fmt.font)).Nodup
  font : ∀ q ∈ d.xfFormats,
    ((d.xfFormats.filter (·.hasFont)).map (·.fmt.font))[q.fontIndex]? = some q.fmt.font
  fillCount : d.fillCount =
    (fixedFills ++ (d.xfFormats.filter (·.hasFill)).map (·.fmt.fill)).length
  fillNodup : (fixedFills ++
    (d.xfFormats.filter (·.hasFill)).map (·.fmt.fill)).Nodup
  fill : ∀ q ∈ d.xfFormats, (fixedFills ++
    (d.xfFormats.filter (·.hasFill)).map (·.fmt.fill))[q.fillIndex]? = some q.fmt.fill
  borderCount : d.borderCount = ((d.xfFormats.filter (·.hasBorder)).map (·.fmt.borders)).length
  borderNodup : ((d.xfFormats.filter (·.hasBorder)).map (·.fmt.borders)).Nodup
  border : ∀ q ∈ d.xfFormats,
    ((d.xfFormats.filter (·.hasBorder)).map (·.fmt.borders))[q.borderIndex]? = some q.fmt.borders
  numNodup : d.numFormats.Nodup
  num : ∀ (j : Nat) (f : Format) (q : PFormat), fs[j]? = some f → d.xfFormats[j]? = some q →
    numShown d.numFormats q.fmt.numFormatIndex = numMeant f

theorem prepareStyles_facts (fs : List Format) (hl hc : Bool)
    (hi : ∀ f ∈ fs, f.numFormatIndex < 164) : StyleFacts fs (prepareStyles fs hl hc) := by
  let p0 : List PFormat := fs.map fun f => { fmt := f }
  let a := prepareFonts p0
  let b0 := a.1.map fun p => { p with fmt := { p.fmt with fill := fixFill p.fmt.fill } }
  let b := prepareFills a.1
  let c := prepareBorders b.1
  let d := prepareNumFormats c.1
  have hD : (prepareStyles fs hl hc).xfFormats = d.1 := rfl
  have ha := indexLoop_spec (fun p => p.fmt.font) PFormat.setFontIndex (·.hasFont) (·.fontIndex)
    (fun _ _ _ => rfl) (fun _ _ _ => rfl) (fun _ _ _ => rfl) p0 [] 0 [] rfl (by simp) (by simp) (by simp)
  have hb := indexLoop_spec (fun p => p.fmt.fill) PFormat.setFillIndex (·.hasFill) (·.fillIndex)
    (fun _ _ _ => rfl) (fun _ _ _ => rfl) (fun _ _ _ => rfl) b0
    [({}, 0), ({ pattern := .gray125 }, 1)] 2 [{}, { pattern := .gray125 }] rfl
    (by
      intro k i h
      simp only [List.lookup] at h
      split at h
      · rename_i h1; simp at h1 h; subst h1 h; rfl
      · split at h
        · rename_i h1; simp at h1 h; subst h1 h; rfl
        · cases h)
    (by
      intro k h
      simp only [List.lookup] at h
      split at h
      · cases h
      · rename_i h1
        split at h
        · cases h
        · rename_i h2
          simp only [beq_eq_false_iff_ne, ne_eq] at h1 h2
          simp only [List.mem_cons, List.not_mem_nil, or_false, h1, h2, not_false_eq_true])
    (by decide)
  have hcb := indexLoop_spec (fun p => p.fmt.borders) PFormat.setBorderIndex (·.hasBorder) (·.borderIndex)
    (fun _ _ _ => rfl) (fun _ _ _ => rfl) (fun _ _ _ => rfl) b.1 [] 0 [] rfl (by simp) (by simp) (by simp)
  -- from one stage to the next
  have mDC : ∀ {α : Type} (φ : PFormat → α) (_ : ∀ i p, φ (p.setNumIndex i) = φ p),
      d.1.map φ = c.1.map φ := fun φ h => numFormatLoop_map φ h _ _ _ _
  have mCB : ∀ {α : Type} (φ : PFormat → α) (_ : ∀ i b p, φ (PFormat.setBorderIndex i b p) = φ p),
      c.1.map φ = b.1.map φ := fun φ h => indexLoop_map _ _ φ h _ _ _
  have mBB : ∀ {α : Type} (φ : PFormat → α) (_ : ∀ i b p, φ (PFormat.setFillIndex i b p) = φ p),
      b.1.map φ = b0.map φ := fun φ h => indexLoop_map _ _ φ h _ _ _
  have mBA : ∀ {α : Type} (φ : PFormat → α)
      (_ : ∀ p, φ { p with fmt := { p.fmt with fill := fixFill p.fmt.fill } } = φ p),
      b0.map φ = a.1.map φ := by
    intro α φ h
    simp [b0, List.map_map, Function.comp_def, h]
  have mA0 : ∀ {α : Type} (φ : PFormat → α) (_ : ∀ i b p, φ (PFormat.setFontIndex i b p) = φ p),
      a.1.map φ = p0.map φ := fun φ h => indexLoop_map _ _ φ h _ _ _
  -- fonts
  have eF := filter_map_same (·.hasFont) (·.fontIndex) (fun p => p.fmt.font) d.1 a.1 (by
    rw [mDC _ (fun _ _ => rfl), mCB _ (fun _ _ _ => rfl), mBB _ (fun _ _ _ => rfl), mBA _ (fun _ => rfl)])
  have eL := filter_map_same (·.hasFill) (·.fillIndex) (fun p => p.fmt.fill) d.1 b.1 (by
    rw [mDC _ (fun _ _ => rfl), mCB _ (fun _ _ _ => rfl)])
  have eB := filter_map_same (·.hasBorder) (·.borderIndex) (fun p => p.fmt.borders) d.1 c.1 (by
    rw [mDC _ (fun _ _ => rfl)])
  simp only [List.nil_append] at ha hcb
  have hs : c.1.map (fun p => p.fmt) = fs.map fun f => { f with fill := fixFill f.fill } := by
    rw [mCB _ (fun _ _ _ => rfl), mBB _ (fun _ _ _ => rfl)]
    have := mA0 (fun p => { p.fmt with fill := fixFill p.fmt.fill }) (fun _ _ _ => rfl)
    rw [show b0.map (fun p => p.fmt) = a.1.map fun p => { p.fmt with fill := fixFill p.fmt.fill } by
      simp [b0, List.map_map, Function.comp_def], this]
    simp [p0, List.map_map, Function.comp_def]
  have hci : ∀ p ∈ c.1, p.fmt.numFormatIndex < 164 := by
    intro p hp
    have : p.fmt ∈ c.1.map (fun p => p.fmt) := List.mem_map_of_mem hp
    rw [hs] at this
    obtain ⟨f, hf, e⟩ := List.mem_map.mp this
    rw [← e]; exact hi f hf
  have hnum := numFormatLoop_spec c.1 hci [] 164 [] (by rfl) (by simp) (by simp) (by simp)
  refine
    { same := ?_, fontCount := ?_, fontNodup := ?_, font := ?_, fillCount := ?_, fillNodup := ?_,
      fill := ?_, borderCount := ?_, borderNodup := ?_, border := ?_, numNodup := ?_, num := ?_ }
  · rw [hD, mDC _ (fun _ _ => rfl)]
    have := congrArg (List.map fun (f : Format) => { f with numFormatIndex := 0 }) hs
    simp only [List.map_map, Function.comp_def] at this
    exact this
  · rw [hD, eF.1]; exact ha.1
  · rw [hD, eF.1]; exact ha.2.1
  · rw [hD, eF.1]
    intro q hq
    obtain ⟨q', h1, h2, h3⟩ := eF.2 q hq
    rw [h2, h3]; exact ha.2.2 q' h1
  · rw [hD, eL.1]; exact hb.1
  · rw [hD, eL.1]; exact hb.2.1
  · rw [hD, eL.1]
    intro q hq
    obtain ⟨q', h1, h2, h3⟩ := eL.2 q hq
    rw [h2, h3]; exact hb.2.2 q' h1
  · rw [hD, eB.1]; exact hcb.1
  · rw [hD, eB.1]; exact hcb.2.1
  · rw [hD, eB.1]
    intro q hq
    obtain ⟨q', h1, h2, h3⟩ := eB.2 q hq
    rw [h2, h3]; exact hcb.2.2 q' h1
  · exact hnum.1
  · intro j f q hf hq
    have hcj : ∃ p, c.1[j]? = some p ∧ p.fmt = { f with fill := fixFill f.fill } := by
      have := congrArg (fun l => l[j]?) hs
      simp only [List.getElem?_map, hf, Option.map_some] at this
      cases hx : c.1[j]? with
      | none => rw [hx] at this; cases this
      | some p => rw [hx] at this; simp at this; exact ⟨p, rfl, this⟩
    obtain ⟨p, hp, he⟩ := hcj
    have := hnum.2 j p q hp hq
    rw [he] at this
    exact this

/-! ### Attributes of a cell format -/

theorem xf_parts (p : PFormat) : (treeParts (xfTree p)).1 = xfAttrs p ∧
    (∀ t, child t (treeParts (xfTree p)).2 =
      if p.fmt.alignment.hasAlignment = true ∧ t = "alignment".toList then
        some (treeParts (alignmentTree p.fmt.alignment))
      else if p.fmt.hasProtection = true ∧ t = "protection".toList then
        some (treeParts (protectionTree p.fmt))
      else if p.fmt.checkbox = true ∧ t = "extLst".toList then some (treeParts xfExtTree) else none) := by
  constructor
  · unfold xfTree; split <;> rfl
  · intro t
    unfold xfTree
    split
    · rename_i h
      show child t (toNodes _) = _
      rw [child_trees]
      cases h1 : p.fmt.alignment.hasAlignment <;> cases h2 : p.fmt.hasProtection <;>
        cases h3 : p.fmt.checkbox <;>
      · simp only [optTree, if_true, Bool.false_eq_true, if_false, List.nil_append, List.cons_append,
          List.find?_cons, List.find?_nil,
          show treeTag (alignmentTree p.fmt.alignment) = "alignment".toList from rfl,
          show treeTag (protectionTree p.fmt) = "protection".toList from rfl,
          show treeTag xfExtTree = "extLst".toList from rfl, true_and, false_and]
        by_cases e1 : "alignment".toList = t
        · subst e1; simp
        · have e1' : t ≠ "alignment".toList := fun h => e1 h.symm
          by_cases e2 : "protection".toList = t
          · subst e2; simp
          · have e2' : t ≠ "protection".toList := fun h => e2 h.symm
            by_cases e3 : "extLst".toList = t
            · subst e3; simp
            · have e3' : t ≠ "extLst".toList := fun h => e3 h.symm
              simp only [e1, e2, e3, e1', e2', e3', decide_false, if_false, Option.map_none]
    · rename_i h
      simp only [Bool.not_eq_true, Bool.or_eq_false_iff] at h
      simp only [h.1.1, h.1.2, h.2, Bool.false_eq_true, false_and, if_false]
      rfl

theorem xfAttrs_lookup (p : PFormat) :
    attrNat "numFmtId".toList (xfAttrs p) = some p.fmt.numFormatIndex ∧
    attrNat "fontId".toList (xfAttrs p) = some p.fontIndex ∧
    attrNat "fillId".toList (xfAttrs p) = some p.fillIndex ∧
    attrNat "borderId".toList (xfAttrs p) = some p.borderIndex ∧
    attrNat "xfId".toList (xfAttrs p) = some (if p.fmt.font.isHyperlink then 1 else 0) ∧
    ((xfAttrs p).lookup "quotePrefix".toList = some "1".toList ↔ p.fmt.quotePrefix = true) := by
  refine ⟨?_, ?_, ?_, ?_, ?_, ?_⟩
  · simp [attrNat, xfAttrs, List.lookup, readNat_showNat]
  · simp [attrNat, xfAttrs, List.lookup, readNat_showNat]
  · simp [attrNat, xfAttrs, List.lookup, readNat_showNat]
  · simp [attrNat, xfAttrs, List.lookup, readNat_showNat]
  · have h1 : readNat ['1'] = some 1 := by decide
    have h0 : readNat ['0'] = some 0 := by decide
    cases h : p.fmt.font.isHyperlink <;> simp [attrNat, xfAttrs, List.lookup, h, h1, h0]
  · unfold xfAttrs
    dsimp only
    simp only [List.lookup_append, lookup_optAttr]
    cases h : p.fmt.quotePrefix <;> simp [List.lookup]

theorem protection_lookup (f : Format) :
    ((treeParts (protectionTree f)).1.lookup "locked".toList ≠ some "0".toList ↔ f.locked = true) ∧
    ((treeParts (protectionTree f)).1.lookup "hidden".toList = some "1".toList ↔ f.hidden = true) := by
  unfold protectionTree
  simp only [treeParts, List.lookup_append, lookup_optAttr]
  cases f.locked <;> cases f.hidden <;> simp

/-! ### Number formats -/

theorem find_numFmt (nf : List Str) (i id : Nat) :
    ((numFmtTrees i nf).map treeParts).find? (fun e => attrNat "numFmtId".toList e.1 == some id) =
      if i + 164 ≤ id then (nf[id - (i + 164)]?).map fun s => treeParts (numFmtTree id s) else none := by
  induction nf generalizing i with
  | nil => simp [numFmtTrees]
  | cons s r ih =>
    have ha : ∀ n s, attrNat "numFmtId".toList (treeParts (numFmtTree n s)).1 = some n := by
      intro n s
      simp [attrNat, numFmtTree, treeParts, List.lookup, readNat_showNat]
    simp only [numFmtTrees, List.map_cons, List.find?_cons, ha]
    by_cases h : i + 164 = id
    · subst h; simp
    · have hb : (some (i + 164) == some id) = false := by simpa using h
      rw [hb, ih]
      dsimp only
      by_cases hle : i + 164 ≤ id
      · rw [if_pos hle, if_pos (by omega)]
        have : id - (i + 164) = id - (i + 1 + 164) + 1 := by omega
        rw [this]; simp
      · rw [if_neg hle, if_neg (by omega)]

theorem readNum_shown (nf : List Str) (id : Nat) :
    readNum id ((numFmtTrees 0 nf).map treeParts) = some (numShown nf id) := by
  unfold readNum numShown
  rw [find_numFmt]
  by_cases h : id < 164
  · rw [if_neg (by omega), if_pos h]
  · rw [if_pos (by omega), if_neg h]
    cases hx : nf[id - 164]? with
    | none => simp [hx]
    | some s =>
      simp only [Nat.zero_add, hx, Option.map_some]
      simp [numFmtTree, treeParts, List.lookup]

theorem numFmt_tag (nf : List Str) (i : Nat) : ∀ t ∈ numFmtTrees i nf, treeTag t = "numFmt".toList := by
  induction nf generalizing i with
  | nil => simp [numFmtTrees]
  | cons s r ih =>
    intro t ht
    simp only [numFmtTrees, List.mem_cons] at ht
    rcases ht with rfl | ht
    · rfl
    · exact ih _ t ht

theorem numFmtTrees_length (nf : List Str) (i : Nat) : (numFmtTrees i nf).length = nf.length := by
  induction nf generalizing i with
  | nil => rfl
  | cons s r ih => simp [numFmtTrees, ih]

/-! ### The lists of the part -/

/-- The children of the root. -/
def stylesKids (d : StyleData) (dxfs : Tree) : List Tree :=
  numFmtsTrees d.numFormats ++
     [fontsTree d, fillsTree d, bordersTree d, cellStyleXfsTree d, cellXfsTree d, cellStylesTree d,
      dxfs, tableStylesTree]

theorem find_append_numFmts (nf : List Str) (r : List Tree) {t : Text} (ht : t ≠ "numFmts".toList) :
    (numFmtsTrees nf ++ r).find? (fun x => decide (treeTag x = t)) =
      r.find? (fun x => decide (treeTag x = t)) := by
  unfold numFmtsTrees
  split
  · rfl
  · simp only [List.cons_append, List.nil_append, List.find?_cons,
      show ∀ a b, treeTag (.node "numFmts".toList a b) = "numFmts".toList from fun _ _ => rfl]
    simp only [ht.symm, decide_false]

theorem readItems_node (list item : Text) (kids : List Tree) (n : Nat) (ks : List Tree)
    (hf : kids.find? (fun x => decide (treeTag x = list)) =
      some (.node list [("count".toList, showNat n)] ks))
    (ht : ∀ t ∈ ks, treeTag t = item) (hn : n = ks.length) :
    readItems list item (toNodes kids) = some (ks.map treeParts) := by
  unfold readItems
  rw [child_trees, hf]
  simp only [Option.map_some, Option.bind_some, treeParts]
  rw [childrenAll_toNodes item ks ht]
  simp [attrNat, List.lookup, readNat_showNat, hn]

theorem fontTree_tag (f : Font) : treeTag (fontTree f false) = "font".toList := rfl
theorem fillTree_tag (f : Fill) : treeTag (fillTree f false) = "fill".toList := by
  unfold fillTree; split <;> rfl
theorem borderTree_tag (f : Border) : treeTag (borderTree f false) = "border".toList := rfl
theorem xfTree_tag (p : PFormat) : treeTag (xfTree p) = "xf".toList := by
  unfold xfTree; split <;> rfl

theorem styles_find {d : StyleData} {dxfs : Tree} :
    (stylesKids d dxfs).find? (fun x => decide (treeTag x = "fonts".toList)) = some (fontsTree d) ∧
    (stylesKids d dxfs).find? (fun x => decide (treeTag x = "fills".toList)) = some (fillsTree d) ∧
    (stylesKids d dxfs).find? (fun x => decide (treeTag x = "borders".toList)) =
      some (bordersTree d) ∧
    (stylesKids d dxfs).find? (fun x => decide (treeTag x = "cellStyleXfs".toList)) =
      some (cellStyleXfsTree d) ∧
    (stylesKids d dxfs).find? (fun x => decide (treeTag x = "cellXfs".toList)) =
      some (cellXfsTree d) ∧
    (stylesKids d dxfs).find? (fun x => decide (treeTag x = "cellStyles".toList)) =
      some (cellStylesTree d) := by
  have t1 : treeTag (fontsTree d) = "fonts".toList := rfl
  have t2 : treeTag (fillsTree d) = "fills".toList := rfl
  have t3 : treeTag (bordersTree d) = "borders".toList := rfl
  have t4 : treeTag (cellStyleXfsTree d) = "cellStyleXfs".toList := rfl
  have t5 : treeTag (cellXfsTree d) = "cellXfs".toList := rfl
  have t6 : treeTag (cellStylesTree d) = "cellStyles".toList := rfl
  refine ⟨?_, ?_, ?_, ?_, ?_, ?_⟩ <;>
  · unfold stylesKids
    rw [find_append_numFmts _ _ (by decide)]
    simp only [List.find?_cons, t1, t2, t3, t4, t5, t6]
    simp

theorem styles_numFmts {d : StyleData} {dxfs : Tree} (hd : treeTag dxfs = "dxfs".toList) :
    (readItems "numFmts".toList "numFmt".toList (toNodes (stylesKids d dxfs))).getD [] =
      (numFmtTrees 0 d.numFormats).map treeParts := by
  by_cases h : d.numFormats = []
  · have : (stylesKids d dxfs).find? (fun x => decide (treeTag x = "numFmts".toList)) = none := by
      have t1 : treeTag (fontsTree d) = "fonts".toList := rfl
      have t2 : treeTag (fillsTree d) = "fills".toList := rfl
      have t3 : treeTag (bordersTree d) = "borders".toList := rfl
      have t4 : treeTag (cellStyleXfsTree d) = "cellStyleXfs".toList := rfl
      have t5 : treeTag (cellXfsTree d) = "cellXfs".toList := rfl
      have t6 : treeTag (cellStylesTree d) = "cellStyles".toList := rfl
      have t7 : treeTag tableStylesTree = "tableStyles".toList := rfl
      simp only [stylesKids, numFmtsTrees, h, if_true, List.nil_append, List.find?_cons,
        List.find?_nil, t1, t2, t3, t4, t5, t6, t7, hd]
      simp
    unfold readItems
    rw [child_trees, this, h]
    rfl
  · rw [readItems_node _ _ _ d.numFormats.length (numFmtTrees 0 d.numFormats) ?_ (numFmt_tag _ _)
      (numFmtTrees_length _ _).symm]
    · rfl
    · simp only [stylesKids, numFmtsTrees, h, if_false, List.cons_append, List.nil_append,
        List.find?_cons]
      rfl

end Verif
