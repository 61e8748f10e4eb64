import Verif.Spec.Drawing
import Verif.Props.DocProps
import Verif.Props.ChartDoc
/-!
C72, first part: colours, fills and lines in a drawing part.
-/
namespace Verif
open Spec

/-! ### Colours -/

theorem lumTree_ok {t : Str} (ht : isName t = true) (n : Nat) : treeOk (valTree t n) = true :=
  treeOk_empty ht (attrsGood_one (by decide +kernel) (showNat_attrSafe n))

theorem alphaTrees_ok (n : Nat) : ∀ k ∈ alphaTrees n, treeOk k = true := by
  unfold alphaTrees
  split
  · exact ok_single (lumTree_ok (by decide +kernel) _)
  · exact ok_nil

theorem colourVal_one {t : Text} (d n : Nat) (r : List Tree) : colourVal t d (toNodes (valTree t n :: r)) = some n := by
  unfold colourVal
  rw [child_head (t := t) _ _ rfl]
  exact attrNat_one n _ []

theorem colourVal_skip {t u : Text} (d n : Nat) (r : List Tree) (h : u ≠ t) :
    colourVal t d (toNodes (valTree u n :: r)) = colourVal t d (toNodes r) := by
  unfold colourVal
  rw [child_skip (valTree u n) r h]

theorem colourVal_nil (t : Text) (d : Nat) : colourVal t d (toNodes []) = some d := rfl

theorem colourVal_if {t : Text} (d n : Nat) (r : List Tree) (h : colourVal t d (toNodes r) = some d) :
    colourVal t d (toNodes ((if n > 0 then [valTree t n] else []) ++ r)) = some (if n > 0 then n else d) := by
  split
  · exact colourVal_one d n r
  · exact h

theorem colourVal_if_skip {t u : Text} (d n : Nat) (r : List Tree) (h : u ≠ t) :
    colourVal t d (toNodes ((if n > 0 then [valTree u n] else []) ++ r)) = colourVal t d (toNodes r) := by
  split
  · exact colourVal_skip d n r h
  · rfl

theorem colourVal_alpha (n : Nat) :
    colourVal "a:alpha".toList 100000 (toNodes (alphaTrees n)) = some (if n > 0 then (100 - n) * 1000 else 100000) := by
  unfold alphaTrees
  split
  · exact colourVal_one _ _ _
  · rfl

theorem colourVal_alpha_skip {t : Text} (d n : Nat) (h : "a:alpha".toList ≠ t) :
    colourVal t d (toNodes (alphaTrees n)) = some d := by
  unfold alphaTrees
  split
  · exact colourVal_skip _ _ _ h
  · rfl

/-- The opacity that is read. -/
theorem opacity_eq (n : Nat) : (if n > 0 then (100 - n) * 1000 else 100000) / 1000 = 100 - n := by
  split
  · rw [Nat.mul_div_cancel _ (by decide)]
  · have : n = 0 := by omega
    subst this; rfl

/-- The children of a scheme colour. -/
def schemeKids (lumMod lumOff transparency : Nat) : List Tree :=
  (if lumMod > 0 then [valTree "a:lumMod".toList lumMod] else []) ++
    ((if lumOff > 0 then [valTree "a:lumOff".toList lumOff] else []) ++ alphaTrees transparency)

theorem schemeTree_parts (s : Str) (m o t : Nat) :
    (schemeTree s m o t).toNode = .elem "a:schemeClr".toList [("val".toList, s)] (toNodes (schemeKids m o t)) := by
  unfold schemeTree
  split
  · rfl
  · rename_i h
    have h1 : m = 0 := by omega
    have h2 : o = 0 := by omega
    have h3 : t = 0 := by omega
    subst h1 h2 h3
    rfl

theorem read_schemeTree {s : Str} {i : Nat} (hi : schemeIndex s = some i) (m o t : Nat) (p : Int)
    (hl : readLum (if m > 0 then m else 100000) (if o > 0 then o else 0) = some p) :
    readDrawColour [(schemeTree s m o t).toNode] = some { color := .theme i p, opacity := 100 - t } := by
  have e1 : colourVal "a:lumMod".toList 100000 (toNodes (schemeKids m o t)) = some (if m > 0 then m else 100000) := by
    unfold schemeKids
    apply colourVal_if
    rw [colourVal_if_skip _ _ _ (by decide), colourVal_alpha_skip _ _ (by decide)]
  have e2 : colourVal "a:lumOff".toList 0 (toNodes (schemeKids m o t)) = some (if o > 0 then o else 0) := by
    unfold schemeKids
    rw [colourVal_if_skip _ _ _ (by decide)]
    apply colourVal_if
    rw [colourVal_alpha_skip _ _ (by decide)]
  have e3 : colourVal "a:alpha".toList 100000 (toNodes (schemeKids m o t)) =
      some (if t > 0 then (100 - t) * 1000 else 100000) := by
    unfold schemeKids
    rw [colourVal_if_skip _ _ _ (by decide), colourVal_if_skip _ _ _ (by decide), colourVal_alpha]
  have e4 : colourVal "a:shade".toList 100000 (toNodes (schemeKids m o t)) = some 100000 := by
    unfold schemeKids
    rw [colourVal_if_skip _ _ _ (by decide), colourVal_if_skip _ _ _ (by decide), colourVal_alpha_skip _ _ (by decide)]
  rw [schemeTree_parts]
  unfold readDrawColour
  dsimp only
  rw [if_neg (by decide), if_pos rfl, look_eq, Option.bind_some, hi, e1, e2, e3, e4]
  dsimp only
  rw [hl, Option.map_some, opacity_eq]

theorem scheme_palette : ∀ c ≤ 9, ∀ s ≤ 5, (chartScheme c s).1 ≠ [] ∧ attrSafe (chartScheme c s).1 = true ∧
    schemeIndex (chartScheme c s).1 = some c ∧
    readLum (if (chartScheme c s).2.1 > 0 then (chartScheme c s).2.1 else 100000)
      (if (chartScheme c s).2.2 > 0 then (chartScheme c s).2.2 else 0) = some (shadePercent c s) := by
  decide +kernel

theorem scheme_palette' {c s : Nat} (h : (Color.theme c s).isValid = true) : (chartScheme c s).1 ≠ [] ∧
    attrSafe (chartScheme c s).1 = true ∧ schemeIndex (chartScheme c s).1 = some c ∧
    readLum (if (chartScheme c s).2.1 > 0 then (chartScheme c s).2.1 else 100000)
      (if (chartScheme c s).2.2 > 0 then (chartScheme c s).2.2 else 0) = some (shadePercent c s) := by
  simp only [Color.isValid, Bool.and_eq_true, decide_eq_true_eq] at h
  exact scheme_palette c h.1 s h.2

theorem rgb_safe (c : Color) : attrSafe c.rgbHexValue = true := by
  cases c with
  | rgb n => exact hex06_safe n
  | theme a b => exact (by decide +kernel : attrSafe "000000".toList = true)
  | _ => decide +kernel

theorem schemeTree_ok {s : Str} (hs : attrSafe s = true) (m o t : Nat) : treeOk (schemeTree s m o t) = true := by
  have ha : attrsGood [("val".toList, s)] := attrsGood_one (by decide +kernel) hs
  unfold schemeTree
  split
  · refine treeOk_node (by decide +kernel) ha (ok_append ?_ (ok_append ?_ (alphaTrees_ok t)))
    · split
      · exact ok_single (lumTree_ok (by decide +kernel) _)
      · exact ok_nil
    · split
      · exact ok_single (lumTree_ok (by decide +kernel) _)
      · exact ok_nil
  · exact treeOk_empty (by decide +kernel) ha

/-- The colours that are written as numbers. -/
theorem colorTrees_srgb {c : Color} (h1 : ∀ a b, c ≠ .theme a b) (h2 : c ≠ .automatic) (t : Nat) :
    colorTrees c t = if t > 0 then [.node "a:srgbClr".toList [("val".toList, c.rgbHexValue)] (alphaTrees t)]
      else [.empty "a:srgbClr".toList [("val".toList, c.rgbHexValue)]] := by
  cases c with
  | theme a b => exact absurd rfl (h1 a b)
  | automatic => exact absurd rfl h2
  | _ => rfl

theorem colorTrees_ok {c : Color} (h : c.isValid = true) (t : Nat) : ∀ k ∈ colorTrees c t, treeOk k = true := by
  by_cases h2 : c = .automatic
  · subst h2; exact ok_single (by decide +kernel)
  by_cases h1 : ∃ a b, c = .theme a b
  · obtain ⟨a, b, e⟩ := h1
    subst e
    unfold colorTrees
    have := scheme_palette' h
    dsimp only
    rw [if_neg this.1]
    exact ok_single (schemeTree_ok this.2.1 _ _ _)
  · rw [colorTrees_srgb (fun a b e => h1 ⟨a, b, e⟩) h2]
    have ha : attrsGood [("val".toList, c.rgbHexValue)] := attrsGood_one (by decide +kernel) (rgb_safe c)
    split
    · exact ok_single (treeOk_node (by decide +kernel) ha (alphaTrees_ok t))
    · exact ok_single (treeOk_empty (by decide +kernel) ha)

/-- The number of a colour. -/
theorem rgb_number {c : Color} (h : c.isValid = true) (h1 : ∀ a b, c ≠ .theme a b) (h2 : c ≠ .automatic) :
    c.rgbHexValue.length = 6 ∧ ∃ n, numeral hexDigit? 16 c.rgbHexValue = some n ∧
      (if c = .default then ColorSeen.rgb 0 else colorMeant c) = .rgb n := by
  cases c with
  | theme a b => exact absurd rfl (h1 a b)
  | automatic => exact absurd rfl h2
  | rgb n =>
    have hn : n ≤ 0xFFFFFF := by simpa [Color.isValid] using h
    exact ⟨rfl, n, numeral_hex06 hn, by rw [if_neg (by simp)]; rfl⟩
  | _ => exact ⟨rfl, _, rfl, rfl⟩

theorem read_srgb {c : Color} (h : c.isValid = true) (h1 : ∀ a b, c ≠ .theme a b) (h2 : c ≠ .automatic) (t : Nat) :
    readDrawColour (toNodes (colorTrees c t)) = some (drawColour c t) := by
  obtain ⟨hl, n, hn, hc⟩ := rgb_number h h1 h2
  have key : ∀ ts : List Tree, colourVal "a:alpha".toList 100000 (toNodes ts) =
      some (if t > 0 then (100 - t) * 1000 else 100000) →
      readDrawColour [.elem "a:srgbClr".toList [("val".toList, c.rgbHexValue)] (toNodes ts)] = some (drawColour c t) := by
    intro ts e
    unfold readDrawColour
    dsimp only
    rw [if_pos rfl, look_eq, e]
    dsimp only
    rw [if_pos hl, hn, Option.map_some, opacity_eq]
    unfold drawColour
    rw [hc, if_neg h2]
  rw [colorTrees_srgb h1 h2]
  split
  · exact key (alphaTrees t) (colourVal_alpha t)
  · rename_i ht
    refine key [] ?_
    rw [if_neg ht]; rfl

/-- A valid colour reads back. -/
theorem read_colour {c : Color} (h : c.isValid = true) (t : Nat) :
    readDrawColour (toNodes (colorTrees c t)) = some (drawColour c t) := by
  by_cases h2 : c = .automatic
  · subst h2; rfl
  by_cases h1 : ∃ a b, c = .theme a b
  · obtain ⟨a, b, e⟩ := h1
    subst e
    obtain ⟨p1, p2, p3, p4⟩ := scheme_palette' h
    unfold colorTrees
    dsimp only
    rw [if_neg p1]
    show readDrawColour [(schemeTree _ _ _ _).toNode] = _
    rw [read_schemeTree p3 _ _ _ _ p4]
    rfl
  · exact read_srgb h (fun a b e => h1 ⟨a, b, e⟩) h2 t

/-! ### Fills -/

theorem solidTree_ok {c : Color} (h : c.isValid = true) (t : Nat) : treeOk (solidTree c t) = true :=
  treeOk_node (by decide +kernel) attrsGood_nil (colorTrees_ok h t)

theorem read_noFill (r : List Tree) : readFill2 (toNodes (.empty "a:noFill".toList [] :: r)) = some .none := by
  unfold readFill2
  rw [child_head (t := "a:noFill".toList) _ _ rfl]

/-- A solid fill. -/
theorem read_solid (ts r : List Tree) (hr : child "a:noFill".toList (toNodes r) = none) :
    readFill2 (toNodes (.node "a:solidFill".toList [] ts :: r)) = (readDrawColour (toNodes ts)).map .solid := by
  unfold readFill2
  rw [child_skip (.node "a:solidFill".toList [] ts) _ (by decide : "a:solidFill".toList ≠ _), hr]
  dsimp only
  rw [child_head (t := "a:solidFill".toList) _ _ rfl]
  rfl

theorem colourChild_if {t : Text} {b : Prop} [Decidable b] {c : Color} (hc : c.isValid = true) (r : List Tree)
    (hr : child t (toNodes r) = none) :
    readColourChild t (toNodes ((if b then [.node t [] (colorTrees c 0)] else []) ++ r)) =
      some (if b then some (drawColour c 0) else none) := by
  unfold readColourChild
  by_cases hb : b
  · rw [if_pos hb, if_pos hb, List.singleton_append, child_head (t := t) _ _ rfl]
    show (readDrawColour (toNodes (colorTrees c 0))).map some = _
    rw [read_colour hc]; rfl
  · rw [if_neg hb, if_neg hb, List.nil_append, hr]

theorem background_kids (f : ShapePatternFill) :
    (if f.background ≠ .default then [Tree.node "a:bgClr".toList [] (colorTrees f.background 0)]
      else if f.background = .default ∧ f.foreground ≠ .default then
        [.node "a:bgClr".toList [] (colorTrees .white 0)]
      else []) =
    (if f.background ≠ .default ∨ f.foreground ≠ .default then
      [Tree.node "a:bgClr".toList [] (colorTrees (if f.background ≠ .default then f.background else .white) 0)] else []) ++
      [] := by
  by_cases h1 : f.background = .default <;> by_cases h2 : f.foreground = .default <;> simp [h1, h2]

theorem pattern_kids_ok {f : ShapePatternFill} (h1 : f.foreground.isValid = true) (h2 : f.background.isValid = true)
    (h3 : attrSafe f.pattern = true) : treeOk (patternTree f) = true := by
  unfold patternTree
  refine treeOk_node (by decide +kernel) (attrsGood_one (by decide +kernel) h3) (ok_append ?_ ?_)
  · split
    · exact ok_single (treeOk_node (by decide +kernel) attrsGood_nil (colorTrees_ok h1 0))
    · exact ok_nil
  · split
    · exact ok_single (treeOk_node (by decide +kernel) attrsGood_nil (colorTrees_ok h2 0))
    · split
      · exact ok_single (treeOk_node (by decide +kernel) attrsGood_nil (colorTrees_ok rfl 0))
      · exact ok_nil

theorem read_pattern {f : ShapePatternFill} (h1 : f.foreground.isValid = true) (h2 : f.background.isValid = true)
    (r : List Tree) (hr1 : child "a:noFill".toList (toNodes r) = none) (hr2 : child "a:solidFill".toList (toNodes r) = none) :
    readFill2 (toNodes (patternTree f :: r)) =
      some (.pattern f.pattern (if f.foreground = .default then none else some (drawColour f.foreground 0))
        (if f.background ≠ .default then some (drawColour f.background 0)
         else if f.foreground ≠ .default then some { color := .rgb 0xFFFFFF } else none)) := by
  have hw : (if f.background ≠ .default then f.background else .white).isValid = true := by
    split
    · exact h2
    · rfl
  unfold readFill2 patternTree
  rw [child_skip (.node "a:pattFill".toList _ _) _ (by decide : "a:pattFill".toList ≠ _), hr1]
  dsimp only
  rw [child_skip (.node "a:pattFill".toList _ _) _ (by decide : "a:pattFill".toList ≠ _), hr2]
  dsimp only
  rw [child_head (t := "a:pattFill".toList) _ _ rfl]
  simp only [treeParts]
  rw [look_eq, background_kids, colourChild_if h1 _ ?_]
  · have e : readColourChild "a:bgClr".toList (toNodes ((if f.foreground ≠ .default then
        [Tree.node "a:fgClr".toList [] (colorTrees f.foreground 0)] else []) ++
        ((if f.background ≠ .default ∨ f.foreground ≠ .default then
          [Tree.node "a:bgClr".toList [] (colorTrees (if f.background ≠ .default then f.background else .white) 0)] else []) ++
          []))) = readColourChild "a:bgClr".toList (toNodes
        ((if f.background ≠ .default ∨ f.foreground ≠ .default then
          [Tree.node "a:bgClr".toList [] (colorTrees (if f.background ≠ .default then f.background else .white) 0)] else []) ++
          [])) := by
      unfold readColourChild
      by_cases hf : f.foreground ≠ .default
      · rw [if_pos hf, List.singleton_append, child_skip (.node "a:fgClr".toList _ _) _ (by decide : "a:fgClr".toList ≠ _)]
      · rw [if_neg hf, List.nil_append]
    rw [e, colourChild_if hw _ rfl]
    dsimp only
    by_cases h1 : f.background = .default <;> by_cases h2 : f.foreground = .default <;> simp [h1, h2]
    rfl
  · split
    · exact child_skip (.node "a:bgClr".toList _ _) _ (by decide : "a:bgClr".toList ≠ _)
    · rfl

theorem stopTree_ok {g : GradientStop} (h : g.color.isValid = true) : treeOk (stopTree g) = true :=
  treeOk_node (by decide +kernel) (attrsGood_one (by decide +kernel) (showNat_attrSafe _)) (colorTrees_ok h 0)

theorem read_stop {g : GradientStop} (h : g.color.isValid = true) :
    readStop (treeParts (stopTree g)) = some (g.position, drawColour g.color 0) := by
  unfold readStop stopTree
  simp only [treeParts]
  rw [attrNat_one, read_colour h]
  dsimp only
  rw [Nat.mul_div_cancel_left _ (by decide)]

theorem read_gradientKind (f : ShapeGradientFill) (ts : List Tree) :
    readGradientKind (toNodes (.node "a:gsLst".toList [] ts :: gradientEnd f)) =
      some (gradientName f.type, if f.type = .linear then f.angle else 0) := by
  unfold readGradientKind gradientEnd
  rw [child_skip (.node "a:gsLst".toList _ _) _ (by decide : "a:gsLst".toList ≠ _),
    child_skip (.node "a:gsLst".toList _ _) _ (by decide : "a:gsLst".toList ≠ _)]
  obtain ⟨t, st, an⟩ := f
  cases t with
  | linear =>
    rw [if_pos rfl, child_head (t := "a:lin".toList) _ _ rfl]
    simp only [treeParts]
    rw [attrNat_one, Option.map_some, Nat.mul_div_cancel_left _ (by decide)]
    rfl
  | _ => rfl

theorem read_gradient {f : ShapeGradientFill} (h : ∀ s ∈ f.stops, s.color.isValid = true) (hl : 2 ≤ f.stops.length)
    (r : List Tree) (hr1 : child "a:noFill".toList (toNodes r) = none) (hr2 : child "a:solidFill".toList (toNodes r) = none)
    (hr3 : child "a:pattFill".toList (toNodes r) = none) :
    readFill2 (toNodes (gradientTree f :: r)) =
      some (.gradient (gradientName f.type) (if f.type = .linear then f.angle else 0)
        (f.stops.map fun s => (s.position, drawColour s.color 0))) := by
  have e1 : (elems "a:gs".toList (toNodes (f.stops.map stopTree))).mapM readStop =
      some (f.stops.map fun s => (s.position, drawColour s.color 0)) := by
    rw [elems_trees, List.filter_eq_self.mpr (fun x hx => by
      obtain ⟨s, _, e⟩ := List.mem_map.mp hx
      rw [← e]; rfl), List.map_map, mapM_map]
    exact mapM_some_of_forall fun s hs => read_stop (h s hs)
  unfold readFill2 gradientTree
  rw [child_skip (.node "a:gradFill".toList _ _) _ (by decide : "a:gradFill".toList ≠ _), hr1]
  dsimp only
  rw [child_skip (.node "a:gradFill".toList _ _) _ (by decide : "a:gradFill".toList ≠ _), hr2]
  dsimp only
  rw [child_skip (.node "a:gradFill".toList _ _) _ (by decide : "a:gradFill".toList ≠ _), hr3]
  dsimp only
  rw [child_head (t := "a:gradFill".toList) _ _ rfl]
  simp only [treeParts]
  rw [child_head (t := "a:gsLst".toList) _ _ rfl, Option.bind_some, read_gradientKind]
  simp only [treeParts]
  rw [e1]
  dsimp only
  rw [if_pos (by rw [List.length_map]; exact hl)]

theorem gradientTree_ok {f : ShapeGradientFill} (h : ∀ s ∈ f.stops, s.color.isValid = true) :
    treeOk (gradientTree f) = true := by
  unfold gradientTree
  refine treeOk_node (by decide +kernel) ?_ ?_
  · split
    · exact ⟨by decide +kernel, by decide +kernel⟩
    · exact attrsGood_nil
  · refine ok_cons (treeOk_node (by decide +kernel) attrsGood_nil fun k hk => ?_) ?_
    · obtain ⟨s, hs, e⟩ := List.mem_map.mp hk
      rw [← e]; exact stopTree_ok (h s hs)
    · unfold gradientEnd
      obtain ⟨t, st, an⟩ := f
      cases t with
      | linear =>
        rw [if_pos rfl]
        refine ok_single (treeOk_empty (by decide +kernel) ?_)
        exact two_good (by decide +kernel) (by decide +kernel) (showNat_attrSafe _) (by decide +kernel) (by decide +kernel)
      | _ =>
        rw [if_neg (by intro e; cases e)]
        dsimp only
        exact ok_cons (by decide +kernel) (ok_single (by decide +kernel))

/-- The parts of `formatOk`. -/
theorem formatOk_parts {f : ShapeFormat} (h : formatOk f = true) :
    (∀ l, f.line = some l → l.color.isValid = true) ∧
    (∀ s, f.solid = some s → s.color.isValid = true) ∧
    (∀ p, f.pattern = some p → p.foreground.isValid = true ∧ p.background.isValid = true ∧ attrSafe p.pattern = true) ∧
    (∀ g, f.gradient = some g → (∀ s ∈ g.stops, s.color.isValid = true) ∧ 2 ≤ g.stops.length) := by
  unfold formatOk at h
  simp only [Bool.and_eq_true] at h
  obtain ⟨⟨⟨h1, h2⟩, h3⟩, h4⟩ := h
  refine ⟨fun l e => ?_, fun s e => ?_, fun p e => ?_, fun g e => ?_⟩
  · rw [e] at h1
    dsimp only at h1
    rw [Bool.and_eq_true] at h1; exact h1.1
  · rw [e] at h2
    dsimp only at h2
    rw [Bool.and_eq_true] at h2; exact h2.1
  · rw [e] at h3
    dsimp only at h3
    rw [Bool.and_eq_true, Bool.and_eq_true] at h3; exact ⟨h3.1.1, h3.1.2, h3.2⟩
  · rw [e] at h4
    dsimp only at h4
    rw [Bool.and_eq_true] at h4
    refine ⟨fun s hs => ?_, of_decide_eq_true h4.2⟩
    have := List.all_eq_true.mp h4.1 s hs
    rw [Bool.and_eq_true] at this; exact this.1

theorem shapeFill_ok {f : ShapeFormat} (h : formatOk f = true) : treeOk (shapeFillTree f) = true := by
  obtain ⟨_, h2, h3, h4⟩ := formatOk_parts h
  unfold shapeFillTree
  split
  · decide +kernel
  · split
    · rename_i s e; exact solidTree_ok (h2 s e) _
    · split
      · rename_i p e; exact pattern_kids_ok (h3 p e).1 (h3 p e).2.1 (h3 p e).2.2
      · split
        · rename_i g e; exact gradientTree_ok (h4 g e).1
        · decide +kernel

/-- The fill of a shape reads back. -/
theorem read_shapeFill {f : ShapeFormat} (h : formatOk f = true) (r : List Tree)
    (hr1 : child "a:noFill".toList (toNodes r) = none) (hr2 : child "a:solidFill".toList (toNodes r) = none)
    (hr3 : child "a:pattFill".toList (toNodes r) = none) :
    readFill2 (toNodes (shapeFillTree f :: r)) = some (shapeFillMeant f) := by
  obtain ⟨_, h2, h3, h4⟩ := formatOk_parts h
  obtain ⟨nf, nl, li, so, pa, gr⟩ := f
  unfold shapeFillTree shapeFillMeant
  dsimp only at h2 h3 h4 ⊢
  cases nf with
  | true => exact read_noFill r
  | false =>
    rw [if_neg (by decide), if_neg (by decide)]
    cases so with
    | some s =>
      dsimp only
      unfold solidTree
      rw [read_solid _ _ hr1, read_colour (h2 s rfl)]; rfl
    | none =>
      cases pa with
      | some p => exact read_pattern (h3 p rfl).1 (h3 p rfl).2.1 r hr1 hr2
      | none =>
        cases gr with
        | some g => exact read_gradient (h4 g rfl).1 (h4 g rfl).2 r hr1 hr2 hr3
        | none =>
          dsimp only
          unfold shapeDefaultFill
          rw [read_solid _ _ hr1]; rfl

/-! ### Lines -/

theorem defaultLine_read : readDrawColour (toNodes [Tree.node "a:schemeClr".toList [("val".toList, "lt1".toList)]
    [valTree "a:shade".toList 50000]]) = some { color := .theme 0 0, shade := 50 } := by decide +kernel

theorem lineKids_ok {l : ShapeLine} (h : l.color.isValid = true) : ∀ k ∈ lineKids l, treeOk k = true := by
  unfold lineKids
  split
  · split
    · exact ok_single (by decide +kernel)
    · refine ok_cons ?_ ?_
      · split
        · decide +kernel
        · exact solidTree_ok h _
      · split
        · refine ok_single (treeOk_empty (by decide +kernel) (attrsGood_one (by decide +kernel) ?_))
          cases l.dash <;> decide +kernel
        · exact ok_nil
  · exact ok_single (by decide +kernel)

theorem lineTree_ok {l : ShapeLine} (h : l.color.isValid = true) : treeOk (lineTree l) = true :=
  treeOk_node (by decide +kernel)
    (two_good (by decide +kernel) (by decide +kernel) (showNat_attrSafe _) (by decide +kernel) (by decide +kernel))
    (lineKids_ok h)

/-- The dash in a line. -/
theorem dash_child (b : Prop) [Decidable b] (v : Str) (t : Text) (h : "a:prstDash".toList ≠ t) :
    child t (toNodes (if b then [.empty "a:prstDash".toList [("val".toList, v)]] else [])) = none := by
  split
  · exact child_skip (.empty "a:prstDash".toList _) _ h
  · rfl

theorem dash_text (d : DashType) : d.text = dashName d := by cases d <;> rfl

theorem lineFill_read {l : ShapeLine} (h : l.color.isValid = true) :
    readFill2 (toNodes (lineKids l)) = some (lineFillMeant l) := by
  unfold lineKids lineFillMeant
  by_cases hh : l.hidden = true
  · rw [if_pos (Or.inr (Or.inr hh)), if_pos hh, if_pos hh]
    exact read_noFill []
  · rw [if_neg hh, if_neg hh]
    by_cases hc : l.color = .default
    · rw [if_pos hc, if_pos hc]
      have e : ∀ r, child "a:noFill".toList (toNodes r) = none →
          readFill2 (toNodes (defaultLineTree :: r)) = some (.solid { color := .theme 0 0, shade := 50 }) := by
        intro r hr
        unfold defaultLineTree
        rw [read_solid _ _ hr, defaultLine_read]; rfl
      split
      · exact e _ (dash_child _ _ _ (by decide))
      · exact e [] rfl
    · rw [if_pos (Or.inl hc), if_neg hc, if_neg hc]
      unfold solidTree
      rw [read_solid _ _ (dash_child _ _ _ (by decide)), read_colour h]; rfl

theorem lineDash_read (l : ShapeLine) (hh : l.hidden = false) :
    (child "a:prstDash".toList (toNodes (lineKids l)) = none ∧ l.dash = .solid) ∨
    (child "a:prstDash".toList (toNodes (lineKids l)) = some ([("val".toList, l.dash.text)], [])) := by
  have e : ∀ (x : Tree) (_ : treeTag x = "a:solidFill".toList),
      (child "a:prstDash".toList (toNodes (x ::
        (if l.dash ≠ .solid then [.empty "a:prstDash".toList [("val".toList, l.dash.text)]] else []))) = none ∧
        l.dash = .solid) ∨
      child "a:prstDash".toList (toNodes (x ::
        (if l.dash ≠ .solid then [.empty "a:prstDash".toList [("val".toList, l.dash.text)]] else []))) =
        some ([("val".toList, l.dash.text)], []) := by
    intro x hx
    rw [child_skip x _ (by rw [hx]; decide)]
    by_cases hd : l.dash = .solid
    · exact Or.inl ⟨by rw [if_neg (fun h => h hd)]; rfl, hd⟩
    · exact Or.inr (by rw [if_pos hd]; rfl)
  unfold lineKids
  by_cases hc : l.color ≠ .default ∨ l.dash ≠ .solid ∨ l.hidden = true
  · rw [if_pos hc, if_neg (by rw [hh]; decide)]
    apply e
    split <;> rfl
  · rw [if_neg hc]
    refine Or.inl ⟨rfl, ?_⟩
    by_cases hd : l.dash = .solid
    · exact hd
    · exact absurd (Or.inr (Or.inl hd)) hc

/-- The width is that of the nearest quarter of a point. -/
theorem lineEmus_nearest (w : Nat) : NearestQuarter w (lineEmus w) := by
  refine ⟨(w + 125) * 4 / 1000, ?_, ?_, ?_⟩
  · unfold lineEmus; omega
  · omega
  · omega

theorem outline_line {l : ShapeLine} (h : l.color.isValid = true) (r : List Tree) :
    ∃ o, readOutline (toNodes (lineTree l :: r)) = some o ∧ o.fill = lineFillMeant l ∧ NearestQuarter l.width o.width ∧
      (l.hidden = false → o.dash = dashName l.dash) := by
  have e : readOutline (toNodes (lineTree l :: r)) =
      match child "a:prstDash".toList (toNodes (lineKids l)) with
      | none => some ⟨lineEmus l.width, lineFillMeant l, "solid".toList⟩
      | some d => (d.1.lookup "val".toList).map fun v => ⟨lineEmus l.width, lineFillMeant l, v⟩ := by
    unfold readOutline lineTree
    rw [child_head (t := "a:ln".toList) _ _ rfl]
    simp only [treeParts]
    rw [attrNat_one, lineFill_read h]
    rfl
  rw [e]
  by_cases hh : l.hidden = true
  · have hk : child "a:prstDash".toList (toNodes (lineKids l)) = none := by
      unfold lineKids
      rw [if_pos (Or.inr (Or.inr hh)), if_pos hh]; rfl
    rw [hk]
    exact ⟨_, rfl, rfl, lineEmus_nearest _, fun h' => by rw [hh] at h'; cases h'⟩
  · have hh' : l.hidden = false := by simpa using hh
    rcases lineDash_read l hh' with ⟨hk, hd⟩ | hk
    · rw [hk]
      exact ⟨_, rfl, rfl, lineEmus_nearest _, fun _ => by rw [hd]; rfl⟩
    · rw [hk]
      dsimp only
      rw [look_eq, Option.map_some]
      exact ⟨_, rfl, rfl, lineEmus_nearest _, fun _ => dash_text _⟩

theorem outline_ok {f : ShapeFormat} (h : formatOk f = true) : treeOk (outlineTree f) = true := by
  obtain ⟨h1, _⟩ := formatOk_parts h
  unfold outlineTree
  split
  · decide +kernel
  · split
    · rename_i l e; exact lineTree_ok (h1 l e)
    · exact lineTree_ok rfl

/-- The line of a shape reads back. -/
theorem read_shapeLine {f : ShapeFormat} (h : formatOk f = true) (r : List Tree) :
    ∃ o, readOutline (toNodes (outlineTree f :: r)) = some o ∧ OutlineMeant f o := by
  obtain ⟨h1, _⟩ := formatOk_parts h
  unfold outlineTree OutlineMeant
  by_cases hn : f.noLine = true
  · rw [if_pos hn]
    simp only [if_pos hn]
    exact ⟨⟨9525, .none, "solid".toList⟩, by unfold readOutline; rw [child_head (t := "a:ln".toList) _ _ rfl]; decide +kernel, rfl⟩
  · rw [if_neg hn]
    simp only [if_neg hn]
    cases e : f.line with
    | some l => exact outline_line (h1 l e) r
    | none => exact outline_line rfl r

theorem outline_tag (f : ShapeFormat) : treeTag (outlineTree f) = "a:ln".toList := by
  unfold outlineTree
  split
  · rfl
  · split <;> rfl

theorem fill_tag (f : ShapeFormat) (t : Text) (h : t ∉ ["a:noFill".toList, "a:solidFill".toList, "a:pattFill".toList,
    "a:gradFill".toList]) : treeTag (shapeFillTree f) ≠ t := by
  simp only [List.mem_cons, List.not_mem_nil, or_false, not_or] at h
  unfold shapeFillTree
  split
  · exact fun e => h.1 e.symm
  · split
    · exact fun e => h.2.1 e.symm
    · split
      · exact fun e => h.2.2.1 e.symm
      · split
        · exact fun e => h.2.2.2 e.symm
        · exact fun e => h.2.1 e.symm

end Verif
