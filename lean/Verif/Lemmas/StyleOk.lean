import Verif.Lemmas.StyleIndex
/-!
The styles part consists of names and characters XML can carry.
-/
set_option linter.unusedSimpArgs false
namespace Verif
open Spec

/-- Good attributes. -/
def attrsGood (as : Attrs) : Prop := (∀ a ∈ as, attrOk a = true) ∧ (as.map Prod.fst).Nodup

theorem treeOk_node {t : Str} {as : Attrs} {ks : List Tree} (ht : isName t = true)
    (ha : attrsGood as) (hk : ∀ k ∈ ks, treeOk k = true) : treeOk (.node t as ks) = true := by
  simp only [treeOk, ht, treesOk_all hk, List.all_eq_true.mpr ha.1, decide_eq_true ha.2, Bool.and_true]

theorem treeOk_empty {t : Str} {as : Attrs} (ht : isName t = true) (ha : attrsGood as) :
    treeOk (.empty t as) = true := by
  simp only [treeOk, ht, List.all_eq_true.mpr ha.1, decide_eq_true ha.2, Bool.and_true]

theorem attrsGood_nil : attrsGood [] := ⟨by simp, by simp⟩

theorem attrsGood_one {n v : Str} (hn : isName n = true) (hv : attrSafe v = true) :
    attrsGood [(n, v)] := ⟨by simp [attrOk, hn, hv], by simp⟩

/-- Attributes whose names are a selection of given distinct names. -/
theorem attrsGood_sub {as : Attrs} {ns : List Str} (h : ∀ a ∈ as, attrOk a = true)
    (hs : (as.map Prod.fst).Sublist ns) (hn : ns.Nodup) : attrsGood as := ⟨h, hs.nodup hn⟩

theorem ok_optTree {b : Bool} {t : Tree} (h : b = true → treeOk t = true) :
    ∀ k ∈ optTree b t, treeOk k = true := by
  intro k hk
  cases b with
  | false => simp [optTree] at hk
  | true => simp [optTree] at hk; subst hk; exact h rfl

theorem ok_append {a b : List Tree} (ha : ∀ k ∈ a, treeOk k = true) (hb : ∀ k ∈ b, treeOk k = true) :
    ∀ k ∈ a ++ b, treeOk k = true := by
  intro k hk
  rcases List.mem_append.mp hk with h | h
  · exact ha k h
  · exact hb k h

theorem ok_single {t : Tree} (h : treeOk t = true) : ∀ k ∈ [t], treeOk k = true := by
  intro k hk; simp at hk; subst hk; exact h

theorem ok_nil : ∀ k ∈ ([] : List Tree), treeOk k = true := by simp

theorem attr_append {a b : Attrs} (ha : ∀ k ∈ a, attrOk k = true) (hb : ∀ k ∈ b, attrOk k = true) :
    ∀ k ∈ a ++ b, attrOk k = true := by
  intro k hk
  rcases List.mem_append.mp hk with h | h
  · exact ha k h
  · exact hb k h

theorem attr_opt {b : Bool} {n v : Str} (hn : isName n = true) (hv : attrSafe v = true) :
    ∀ k ∈ optAttr b n v, attrOk k = true := by
  intro k hk
  cases b <;> simp [optAttr] at hk
  subst hk; simp [attrOk, hn, hv]

theorem optAttr_names (b : Bool) (n v : Str) : ((optAttr b n v).map Prod.fst).Sublist [n] := by
  cases b <;> simp [optAttr]

theorem hexDigitUpper_safe : ∀ d < 16, attrSafe [hexDigitUpper d] = true := by decide +kernel

theorem attrSafe_cons (c : Char) (s : Str) : attrSafe (c :: s) = (attrSafe [c] && attrSafe s) := by
  simp [attrSafe]

theorem hex06_safe (n : Nat) : attrSafe (hex06 n) = true := by
  unfold hex06
  have h : ∀ m, attrSafe [hexDigitUpper (m % 16)] = true :=
    fun m => hexDigitUpper_safe _ (Nat.mod_lt _ (by decide))
  have h' : ∀ (m : Nat) (s : Str), attrSafe s = true → attrSafe (hexDigitUpper (m % 16) :: s) = true := by
    intro m s hs
    rw [attrSafe_cons, h, hs]; rfl
  exact h' _ _ (h' _ _ (h' _ _ (h' _ _ (h' _ _ (h _)))))

theorem argb_safe (c : Color) : attrSafe c.argbHexValue = true := by
  have : ∀ s : Str, attrSafe s = true → attrSafe ("FF".toList ++ s) = true := by
    intro s hs
    show attrSafe ('F' :: 'F' :: s) = true
    rw [attrSafe_cons, attrSafe_cons 'F' s, hs]; decide
  apply this
  cases c with
  | rgb n => exact hex06_safe n
  | theme a b => simp only [Color.rgbHexValue]; decide +kernel
  | _ => decide +kernel

theorem tint_safe (c s : Nat) : attrSafe (themeTint c s) = true := by
  unfold themeTint
  repeat' split
  all_goals decide +kernel

theorem color_good (c : Color) : attrsGood c.attributes := by
  have hrgb : attrsGood [("rgb".toList, c.argbHexValue)] :=
    attrsGood_one (by decide) (argb_safe c)
  cases c with
  | theme a b =>
    unfold Color.attributes
    dsimp only
    split
    · exact attrsGood_one (by decide) (showNat_attrSafe a)
    · refine ⟨?_, by simp only [List.map_cons, List.map_nil]; decide⟩
      intro x hx
      simp only [List.mem_cons, List.not_mem_nil, or_false] at hx
      rcases hx with rfl | rfl
      · simp only [attrOk, showNat_attrSafe, Bool.and_true]; decide
      · simp only [attrOk, tint_safe, Bool.and_true]; decide
  | _ => exact hrgb

/-- The texts of a font can be written. -/
def Font.safe (f : Font) : Bool := attrSafe f.name && attrSafe f.size && attrSafe f.scheme

theorem fontTree_ok {f : Font} (h : f.safe = true) : treeOk (fontTree f false) = true := by
  simp only [Font.safe, Bool.and_eq_true] at h
  have hval : ∀ {t v : Str}, isName t = true → attrSafe v = true →
      treeOk (.empty t [("val".toList, v)]) = true :=
    fun ht hv => treeOk_empty ht (attrsGood_one (by decide) hv)
  refine treeOk_node (by decide) attrsGood_nil ?_
  simp only [Bool.false_eq_true, if_false]
  refine ok_append (ok_append (ok_append (ok_append (ok_append (ok_append (ok_append ?_ ?_) ?_) ?_)
    ?_) ?_) ?_) (ok_append (ok_append (ok_append ?_ ?_) ?_) ?_)
  · exact ok_optTree fun _ => by decide
  · exact ok_optTree fun _ => by decide
  · exact ok_optTree fun _ => by decide
  · exact ok_optTree fun _ => by generalize f.underline = u; revert u; intro u; cases u <;> decide +kernel
  · exact ok_optTree fun _ => by generalize f.script = u; revert u; intro u; cases u <;> decide +kernel
  · exact ok_optTree fun _ => hval (by decide) h.1.2
  · unfold fontColorTrees
    split
    · exact ok_nil
    · exact ok_optTree fun _ => by decide +kernel
    · exact ok_single (treeOk_empty (by decide) (color_good _))
  · exact ok_single (hval (by decide) h.1.1)
  · exact ok_optTree fun _ => hval (by decide) (showNat_attrSafe _)
  · exact ok_optTree fun _ => hval (by decide) (showNat_attrSafe _)
  · exact ok_optTree fun _ => hval (by decide) h.2

theorem pattern_safe (p : FormatPattern) : attrSafe p.text = true := by cases p <;> decide +kernel

theorem border_safe (p : FormatBorder) : attrSafe p.text = true := by cases p <;> decide +kernel

theorem defaultFill_ok {s : Str} (h : attrSafe s = true) : treeOk (defaultFillTree s) = true :=
  treeOk_node (by decide) attrsGood_nil
    (ok_single (treeOk_empty (by decide) (attrsGood_one (by decide) h)))

theorem fillTree_ok (f : Fill) : treeOk (fillTree f false) = true := by
  unfold fillTree
  split
  · exact defaultFill_ok (pattern_safe _)
  · refine treeOk_node (by decide) attrsGood_nil (ok_single (treeOk_node (by decide) ?_
      (ok_append (ok_optTree fun _ => treeOk_empty (by decide) ?_) (ok_single ?_))))
    · exact attrsGood_one (by decide) (pattern_safe _)
    · split <;> exact color_good _
    · split
      · decide +kernel
      · exact treeOk_empty (by decide) (by split <;> exact color_good _)

theorem subBorder_ok {t : Str} (ht : isName t = true) (s : FormatBorder) (c : Color) :
    treeOk (subBorderTree t s c) = true := by
  unfold subBorderTree
  split
  · exact treeOk_empty ht attrsGood_nil
  · refine treeOk_node ht (attrsGood_one (by decide) (border_safe s)) (ok_single
      (treeOk_empty (by decide) ?_))
    split
    · exact color_good c
    · exact attrsGood_one (by decide) (by decide)

theorem borderTree_ok (b : Border) : treeOk (borderTree b false) = true := by
  refine treeOk_node (by decide) ?_ ?_
  · cases b.diagonalType <;> exact ⟨by decide +kernel, by decide +kernel⟩
  · intro k hk
    simp only [Bool.false_eq_true, if_false, List.cons_append, List.nil_append, List.mem_cons,
      List.not_mem_nil, or_false] at hk
    rcases hk with rfl | rfl | rfl | rfl | rfl <;> exact subBorder_ok (by decide) _ _

theorem alignmentTree_ok (a : Alignment) : treeOk (alignmentTree a) = true := by
  refine treeOk_empty (by decide) ?_
  refine attrsGood_sub (ns := ["horizontal".toList] ++ ["vertical".toList] ++ ["textRotation".toList]
    ++ ["indent".toList] ++ ["wrapText".toList] ++ ["shrinkToFit".toList] ++ ["readingOrder".toList])
    ?_ ?_ (by decide +kernel)
  · refine attr_append (attr_append (attr_append (attr_append (attr_append (attr_append ?_ ?_) ?_) ?_)
      ?_) ?_) ?_
    · generalize a.fixedHorizontal = h
      cases h <;> decide +kernel
    · cases a.vertical <;> decide +kernel
    · exact attr_opt (by decide) (showNat_attrSafe _)
    · exact attr_opt (by decide) (showNat_attrSafe _)
    · exact attr_opt (by decide) (by decide)
    · exact attr_opt (by decide) (by decide)
    · exact attr_opt (by decide) (showNat_attrSafe _)
  · simp only [List.map_append]
    refine List.Sublist.append (List.Sublist.append (List.Sublist.append (List.Sublist.append
      (List.Sublist.append (List.Sublist.append ?_ ?_) ?_) ?_) ?_) ?_) ?_
    · generalize a.fixedHorizontal = h
      cases h <;> simp [horizontalAttrs]
    · cases a.vertical <;> simp [verticalAttrs]
    all_goals exact optAttr_names _ _ _

theorem protectionTree_ok (f : Format) : treeOk (protectionTree f) = true := by
  unfold protectionTree
  generalize f.locked = a
  generalize f.hidden = b
  cases a <;> cases b <;> decide +kernel

theorem xfAttrs_good (p : PFormat) : attrsGood (xfAttrs p) := by
  refine attrsGood_sub (ns := ["numFmtId".toList, "fontId".toList, "fillId".toList, "borderId".toList,
    "xfId".toList] ++ ["quotePrefix".toList] ++ ["applyNumberFormat".toList] ++ ["applyFont".toList] ++
    ["applyFill".toList] ++ ["applyBorder".toList] ++ ["applyAlignment".toList] ++
    ["applyProtection".toList]) ?_ ?_ (by decide +kernel)
  · refine attr_append (attr_append (attr_append (attr_append (attr_append (attr_append (attr_append
      ?_ ?_) ?_) ?_) ?_) ?_) ?_) ?_
    · intro k hk
      simp only [List.mem_cons, List.not_mem_nil, or_false] at hk
      have hx : attrSafe (if p.fmt.font.isHyperlink then "1".toList else "0".toList) = true := by
        split <;> decide
      rcases hk with rfl | rfl | rfl | rfl | rfl <;>
        simp only [attrOk, showNat_attrSafe, hx, Bool.and_true] <;> decide
    all_goals exact attr_opt (by decide) (by decide)
  · unfold xfAttrs
    simp only [List.map_append]
    refine List.Sublist.append (List.Sublist.append (List.Sublist.append (List.Sublist.append
      (List.Sublist.append (List.Sublist.append (List.Sublist.append ?_ ?_) ?_) ?_) ?_) ?_) ?_) ?_
    · simp only [List.map_cons, List.map_nil]; exact List.Sublist.refl _
    all_goals exact optAttr_names _ _ _

theorem xfTree_ok (p : PFormat) : treeOk (xfTree p) = true := by
  unfold xfTree
  split
  · exact treeOk_node (by decide) (xfAttrs_good p)
      (ok_append (ok_append (ok_optTree fun _ => alignmentTree_ok _) (ok_optTree fun _ =>
        protectionTree_ok _)) (ok_optTree fun _ => by decide +kernel))
  · exact treeOk_empty (by decide) (xfAttrs_good p)

theorem numFmtTrees_ok (i : Nat) (nf : List Str) (h : ∀ s ∈ nf, attrSafe s = true) :
    ∀ t ∈ numFmtTrees i nf, treeOk t = true := by
  induction nf generalizing i with
  | nil => simp [numFmtTrees]
  | cons s r ih =>
    intro t ht
    simp only [numFmtTrees, List.mem_cons] at ht
    rcases ht with rfl | ht
    · refine treeOk_empty (by decide) ⟨?_, by simp only [List.map_cons, List.map_nil]; decide⟩
      intro x hx
      simp only [List.mem_cons, List.not_mem_nil, or_false] at hx
      rcases hx with rfl | rfl
      · simp only [attrOk, showNat_attrSafe, Bool.and_true]; decide
      · simp only [attrOk, h s List.mem_cons_self, Bool.and_true]; decide
    · exact ih (i + 1) (fun x hx => h x (List.mem_cons_of_mem _ hx)) t ht

theorem hyperlinkStyleXf_ok (n : Nat) : treeOk (hyperlinkStyleXf n) = true := by
  refine treeOk_node (by decide) ⟨?_, by simp only [List.map_cons, List.map_nil]; decide +kernel⟩ ?_
  · intro x hx
    simp only [List.mem_cons, List.not_mem_nil, or_false] at hx
    rcases hx with rfl | rfl | rfl | rfl | rfl | rfl | rfl | rfl | rfl
    case inr.inl => simp only [attrOk, showNat_attrSafe, Bool.and_true]; decide
    all_goals decide
  · intro k hk
    simp only [List.mem_cons, List.not_mem_nil, or_false] at hk
    rcases hk with rfl | rfl <;> decide +kernel

theorem stylesTree_ok (d : StyleData) (dxfs : Tree) (hd : treeOk dxfs = true)
    (hf : ∀ p ∈ d.xfFormats, p.fmt.font.safe = true) (hn : ∀ s ∈ d.numFormats, attrSafe s = true) :
    treeOk (stylesTree d dxfs) = true := by
  have hcount : ∀ n, attrsGood [("count".toList, showNat n)] :=
    fun n => attrsGood_one (by decide) (showNat_attrSafe n)
  refine treeOk_node (by decide) (attrsGood_one (by decide) (by decide +kernel)) (ok_append ?_ ?_)
  · unfold numFmtsTrees
    split
    · exact ok_nil
    · exact ok_single (treeOk_node (by decide) (hcount _) (numFmtTrees_ok _ _ hn))
  · intro k hk
    simp only [List.mem_cons, List.not_mem_nil, or_false] at hk
    rcases hk with rfl | rfl | rfl | rfl | rfl | rfl | rfl | rfl
    · refine treeOk_node (by decide) (hcount _) (ok_append ?_ (ok_optTree fun _ => by decide +kernel))
      intro t ht
      obtain ⟨p, hp, rfl⟩ := List.mem_map.mp ht
      exact fontTree_ok (hf p (List.mem_filter.mp hp).1)
    · refine treeOk_node (by decide) (hcount _) (ok_append ?_ ?_)
      · intro t ht
        simp only [List.mem_cons, List.not_mem_nil, or_false] at ht
        rcases ht with rfl | rfl <;> decide +kernel
      · intro t ht
        obtain ⟨p, hp, rfl⟩ := List.mem_map.mp ht
        exact fillTree_ok _
    · refine treeOk_node (by decide) (hcount _) ?_
      intro t ht
      obtain ⟨p, hp, rfl⟩ := List.mem_map.mp ht
      exact borderTree_ok _
    · refine treeOk_node (by decide) (attrsGood_one (by decide) (by split <;> decide))
        (ok_append (ok_single (by decide +kernel)) (ok_optTree fun _ => hyperlinkStyleXf_ok _))
    · refine treeOk_node (by decide) (hcount _) ?_
      intro t ht
      obtain ⟨p, hp, rfl⟩ := List.mem_map.mp ht
      exact xfTree_ok _
    · refine treeOk_node (by decide) (attrsGood_one (by decide) (by split <;> decide))
        (ok_append (ok_optTree fun _ => by decide +kernel) (ok_single (by decide +kernel)))
    · exact hd
    · decide +kernel

end Verif
