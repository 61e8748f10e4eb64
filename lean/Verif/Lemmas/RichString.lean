import Verif.Lemmas.CellTree
/-!
Rich strings and the shared strings part.
-/
set_option linter.unusedSimpArgs false
namespace Verif
open Spec

/-! ### The font of a run -/

theorem child_runFont (f : Font) (t : Text) : child t (treeParts (runFontTree f)).2 =
    (if f.bold = true ∧ "b".toList = t then some ([], []) else none).or
    ((if f.italic = true ∧ "i".toList = t then some ([], []) else none).or
    ((if f.strikethrough = true ∧ "strike".toList = t then some ([], []) else none).or
    ((if decide (f.underline ≠ .none) = true ∧ "u".toList = t then some ((match f.underline with
      | .double => [("val".toList, "double".toList)]
      | .singleAccounting => [("val".toList, "singleAccounting".toList)]
      | .doubleAccounting => [("val".toList, "doubleAccounting".toList)]
      | _ => []), []) else none).or
    ((if decide (f.script ≠ .none) = true ∧ "vertAlign".toList = t then some ((match f.script with
      | .superscript => [("val".toList, "superscript".toList)]
      | .subscript => [("val".toList, "subscript".toList)]
      | .none => []), []) else none).or
    ((if "sz".toList = t then some ([("val".toList, f.size)], []) else none).or
    ((if t = "color".toList then
        (match f.color with
         | .automatic => none
         | .default => some ([("theme".toList, "1".toList)], [])
         | c => some (c.attributes, []))
      else none).or
    ((if "rFont".toList = t then some ([("val".toList, f.name)], []) else none).or
    ((if decide (f.family > 0) = true ∧ "family".toList = t then
        some ([("val".toList, showNat f.family)], []) else none).or
    ((if decide (f.charset > 0) = true ∧ "charset".toList = t then
        some ([("val".toList, showNat f.charset)], []) else none).or
    (if decide (f.scheme ≠ []) = true ∧ "scheme".toList = t then
        some ([("val".toList, f.scheme)], []) else none)))))))))) := by
  simp only [runFontTree, treeParts, toNodes_append, underline_tree, vertAlign_tree, child_append,
    child_optTree_empty, child_fontColor, child_single_empty, Bool.not_false, if_false,
    Bool.false_eq_true, Option.or_assoc, true_and]
  rfl

theorem readRunFont_tree (f : Font) (hc : f.color.ok = true) :
    readRunFont (treeParts (runFontTree f)).2 = some (fontMeant f) := by
  have key := child_runFont f
  generalize (treeParts (runFontTree f)).2 = ks at key
  have h1 : child "b".toList ks = if f.bold then some ([], []) else none := by rw [key]; simp
  have h2 : child "i".toList ks = if f.italic then some ([], []) else none := by rw [key]; simp
  have h3 : child "strike".toList ks = if f.strikethrough then some ([], []) else none := by
    rw [key]; simp
  have h4 : (child "u".toList ks).map (fun c => (c.1.lookup "val".toList).getD "single".toList) =
      (fontMeant f).underline := by
    rw [key]; cases hu : f.underline <;> simp [hu, fontMeant, List.lookup]
  have h5 : childVal "vertAlign".toList ks = (fontMeant f).script := by
    unfold childVal
    rw [key]; cases hu : f.script <;> simp [hu, fontMeant, List.lookup]
  have h6 : childVal "sz".toList ks = some f.size := by
    unfold childVal; rw [key]; simp [List.lookup]
  have h7 : childVal "rFont".toList ks = some f.name := by
    unfold childVal; rw [key]; simp [List.lookup]
  have h8 : ((childVal "family".toList ks).bind readNat).getD 0 = f.family := by
    unfold childVal; rw [key]
    by_cases h : f.family > 0
    · simp [h, List.lookup, readNat_showNat]
    · simp [h]; omega
  have h9 : ((childVal "charset".toList ks).bind readNat).getD 0 = f.charset := by
    unfold childVal; rw [key]
    by_cases h : f.charset > 0
    · simp [h, List.lookup, readNat_showNat]
    · simp [h]; omega
  have h10 : (childVal "scheme".toList ks).getD [] = f.scheme := by
    unfold childVal; rw [key]
    by_cases h : f.scheme = []
    · simp [h]
    · simp [h, List.lookup]
  have h11 : readFontColor ks = some (fontMeant f).color := by
    unfold readFontColor
    have e : child "color".toList ks = match f.color with
         | .automatic => none
         | .default => some ([("theme".toList, "1".toList)], [])
         | c => some (c.attributes, []) := by
      rw [key]; simp
    rw [e]
    unfold fontMeant
    dsimp only
    by_cases hd : f.color = .default
    · rw [hd]; decide +kernel
    · by_cases ha : f.color = .automatic
      · rw [ha]; simp [colorMeant]
      · have := readColor_attributes hc hd ha
        generalize f.color = c at hd ha this
        cases c <;> first | exact absurd rfl hd | exact absurd rfl ha | simpa using this
  unfold readRunFont
  rw [h6, h7, h11]
  simp only [h1, h2, h3, h4, h5, h8, h9, h10, Option.some.injEq]
  simp only [fontMeant]
  congr 1
  · cases f.bold <;> rfl
  · cases f.italic <;> rfl
  · cases f.strikethrough <;> rfl

theorem runFontTree_ok {f : Font} (h1 : attrSafe f.name = true) (h2 : attrSafe f.size = true)
    (h3 : attrSafe f.scheme = true) : treeOk (runFontTree f) = true := by
  have hval : ∀ {t v : Str}, isName t = true → attrSafe v = true →
      treeOk (.empty t [("val".toList, v)]) = true :=
    fun ht hv => treeOk_empty ht (attrsGood_one (by decide) hv)
  refine treeOk_node (by decide) attrsGood_nil ?_
  refine ok_append (ok_append (ok_append (ok_append (ok_append (ok_append (ok_append (ok_append (ok_append (ok_append ?_ ?_) ?_) ?_)
    ?_) ?_) ?_) ?_) ?_) ?_) ?_
  · exact ok_optTree fun _ => by decide
  · exact ok_optTree fun _ => by decide
  · exact ok_optTree fun _ => by decide
  · exact ok_optTree fun _ => by generalize f.underline = u; revert u; intro u; cases u <;> decide +kernel
  · exact ok_optTree fun _ => by generalize f.script = u; revert u; intro u; cases u <;> decide +kernel
  · exact ok_single (hval (by decide) h2)
  · unfold fontColorTrees
    split
    · exact ok_nil
    · exact ok_optTree fun _ => by decide +kernel
    · exact ok_single (treeOk_empty (by decide) (color_good _))
  · exact ok_single (hval (by decide) h1)
  · exact ok_optTree fun _ => hval (by decide) (showNat_attrSafe _)
  · exact ok_optTree fun _ => hval (by decide) (showNat_attrSafe _)
  · exact ok_optTree fun _ => hval (by decide) h3

/-! ### Runs -/

/-- A `t` element read back. -/
theorem readT_data (s : Str) (p : Bool) (hp : p = false → s.head?.any isSstWhitespace = false ∧
    s.getLast?.any isSstWhitespace = false) :
    readT (Tree.data "t".toList (escapeXmlEscapes s) (siAttrs p)).toNode = some s := by
  have h := si_string s p hp
  simp only [siTree, Tree.toNode, toNodes, stringOfSi, decide_true, Bool.and_self, if_true] at h
  simp only [Tree.toNode, readT, if_true]
  exact h

theorem segAttrs_eq (s : Str) :
    (if s.head?.any isSstWhitespace || s.getLast?.any isSstWhitespace then
      [("xml:space".toList, "preserve".toList)] else []) =
    siAttrs (s.head?.any isSstWhitespace || s.getLast?.any isSstWhitespace) := by
  unfold siAttrs; rfl

theorem preserve_false {s : Str} (h : (s.head?.any isSstWhitespace || s.getLast?.any isSstWhitespace) = false) :
    s.head?.any isSstWhitespace = false ∧ s.getLast?.any isSstWhitespace = false := by
  simpa [Bool.or_eq_false_iff] using h

/-- A segment that can be written. -/
def segOk (s : Format × Text) : Bool :=
  xmlText s.2 && escapeFree s.2 && (s.1.font.color.isValid || s.1.font.color = .theme 10 0) &&
    attrSafe s.1.font.name && attrSafe s.1.font.size && attrSafe s.1.font.scheme

theorem segsOk_iff (segs : List (Format × Text)) : segsOk segs = segs.all segOk := rfl

/-- The meaning of one segment. -/
def segMeant (first : Bool) (s : Format × Text) : Option FontSeen × Text :=
  (if s.1 = {} ∧ first = true then none else some (fontMeant s.1.font), s.2)

/-- The meaning of a list of segments. -/
def segsMeant (first : Bool) : List (Format × Text) → List (Option FontSeen × Text)
  | [] => []
  | s :: ss => segMeant first s :: ss.map (segMeant false)

theorem readRun_tree (first : Bool) (s : Format × Text) (h : segOk s = true) :
    readRichRun (runTree first s).toNode = some (segMeant first s) := by
  simp only [segOk, Bool.and_eq_true] at h
  obtain ⟨⟨⟨⟨⟨h1, h2⟩, h3⟩, h4⟩, h5⟩, h6⟩ := h
  have ht := readT_data s.2 _ preserve_false
  rw [escapeFree_id h2, ← segAttrs_eq] at ht
  unfold runTree segMeant
  dsimp only
  by_cases hd : s.1 = {} ∧ first = true
  · rw [if_pos hd, if_pos hd]
    simp only [List.nil_append, Tree.toNode, toNodes] at ht ⊢
    simp only [readRichRun, if_true, ht, Option.map_some]
  · rw [if_neg hd, if_neg hd]
    have hf := readRunFont_tree s.1.font h3
    simp only [List.singleton_append, Tree.toNode, toNodes] at ht ⊢
    rw [toNode_parts (runFontTree s.1.font)]
    have htag : treeTag (runFontTree s.1.font) = "rPr".toList := rfl
    rw [htag]
    simp only [readRichRun, decide_true, Bool.and_self, if_true, hf, ht]

theorem runTree_ok (first : Bool) (s : Format × Text) (h : segOk s = true) : treeOk (runTree first s) = true := by
  simp only [segOk, Bool.and_eq_true] at h
  obtain ⟨⟨⟨⟨⟨h1, h2⟩, h3⟩, h4⟩, h5⟩, h6⟩ := h
  unfold runTree
  refine treeOk_node (by decide) attrsGood_nil (ok_append ?_ (ok_single ?_))
  · split
    · exact ok_nil
    · exact ok_single (runFontTree_ok h4 h5 h6)
  · rw [segAttrs_eq]
    have hx : s.2.all (fun c => !isNonChar c) = true := h1
    cases (s.2.head?.any isSstWhitespace || s.2.getLast?.any isSstWhitespace) <;>
      simp only [treeOk, hx, Bool.and_true] <;> decide

theorem runTrees_spec (first : Bool) (segs : List (Format × Text)) (ts : List Tree) (h : runTrees first segs = some ts)
    (hok : segs.all segOk = true) : treesOk ts = true ∧ (ts = [] → segs = []) ∧
      (toNodes ts).mapM readRichRun = some (segsMeant first segs) ∧
      (∀ n ∈ toNodes ts, readT n = none) := by
  induction segs generalizing first ts with
  | nil =>
    simp only [runTrees] at h; cases h
    exact ⟨rfl, fun _ => rfl, rfl, by simp [toNodes]⟩
  | cons s ss ih =>
    rw [runTrees] at h
    split at h
    · cases h
    · rw [List.all_cons, Bool.and_eq_true] at hok
      cases e : runTrees false ss with
      | none => rw [e] at h; cases h
      | some ts' =>
        rw [e] at h
        cases h
        obtain ⟨h1, h2, h3, h4⟩ := ih false ts' e hok.2
        refine ⟨?_, by simp, ?_, ?_⟩
        · simp only [treesOk, runTree_ok first s hok.1, h1, Bool.and_self]
        · simp only [toNodes, List.mapM_cons, readRun_tree first s hok.1, h3, Option.bind_eq_bind, Option.bind_some]
          cases ss <;> rfl
        · intro n hn
          simp only [toNodes, List.mem_cons] at hn
          rcases hn with rfl | hn
          · rfl
          · exact h4 n hn

theorem runsMeant_eq (segs : List (Format × Text)) : runsMeant segs = segsMeant true segs := by
  cases segs with
  | nil => rfl
  | cons s ss =>
    have hm : segMeant false = fun s => (some (fontMeant s.1.font), s.2) := by
      funext s; simp [segMeant]
    simp only [runsMeant, segsMeant, hm, segMeant, and_true]

theorem readString_runs (ns : List Node) (hne : ns ≠ []) (l : List (Option FontSeen × Text))
    (h : ns.mapM readRichRun = some l) (ht : ∀ n ∈ ns, readT n = none) : readString ns = some (.runs l) := by
  match ns with
  | [] => exact absurd rfl hne
  | [n] =>
    simp only [readString, ht n List.mem_cons_self]
    simp only [List.mapM_cons, List.mapM_nil] at h
    cases e : readRichRun n with
    | none => rw [e] at h; cases h
    | some r => rw [e] at h; cases h; rfl
  | a :: b :: r => simp only [readString, h, Option.map_some]

/-- The markup of a rich string as trees. -/
theorem rich_spec {segs : List (Format × Text)} {markup raw : Str} (h : getRichString segs = some (markup, raw))
    (hok : segsOk segs = true) : ∃ ts, markup = writeCalls (callsList ts) ∧ treesOk ts = true ∧
      readString (toNodes ts) = some (.runs (runsMeant segs)) := by
  unfold getRichString at h
  split at h
  · cases h
  · rename_i hne
    cases e : runTrees true segs with
    | none => rw [e] at h; cases h
    | some ts =>
      rw [e] at h
      simp only [Option.map_some, Option.some.injEq, Prod.mk.injEq] at h
      obtain ⟨h1, h2, h3, h4⟩ := runTrees_spec true segs ts e hok
      refine ⟨ts, h.1.symm, h1, ?_⟩
      rw [runsMeant_eq]
      refine readString_runs _ ?_ _ h3 h4
      intro hn
      cases ts with
      | nil => exact hne (h2 rfl)
      | cons a r => simp [toNodes] at hn

end Verif
