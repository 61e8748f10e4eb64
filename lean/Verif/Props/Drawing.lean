import Verif.Props.DrawText
/-!
C71 and C72: the objects of a worksheet and the text boxes read back from the drawing part as what was asked for.
-/
namespace Verif
open Spec

/-! ### Corners -/

theorem corner_ok {t : Str} (ht : isName t = true) (c : Corner) : treeOk (cornerTree t c) = true := by
  have h : ∀ (u : Str) (n : Nat), isName u = true → treeOk (.data u (showNat n) []) = true :=
    fun u n hu => textSafe_data hu attrsGood_nil (textSafe_of_attrSafe (showNat_attrSafe n))
  exact treeOk_node ht attrsGood_nil (ok_cons (h _ _ (by decide +kernel)) (ok_cons (h _ _ (by decide +kernel))
    (ok_cons (h _ _ (by decide +kernel)) (ok_single (h _ _ (by decide +kernel))))))

theorem childNat_head (t : Str) (n : Nat) (r : List Tree) : childNat t (toNodes (.data t (showNat n) [] :: r)) = some n := by
  unfold childNat
  rw [child_head (t := t) _ _ rfl, Option.bind_some, data_reads (textSafe_of_attrSafe (showNat_attrSafe n)),
    Option.bind_some, readNat_showNat]

theorem childNat_skip {t u : Str} (n : Nat) (r : List Tree) (h : u ≠ t) :
    childNat t (toNodes (.data u (showNat n) [] :: r)) = childNat t (toNodes r) := by
  unfold childNat
  rw [child_skip (.data u (showNat n) []) _ h]

theorem read_corner (t : Str) (c : Corner) (r : List Tree) :
    readCorner t (toNodes (cornerTree t c :: r)) = some c := by
  unfold readCorner
  rw [child_head (t := t) _ _ rfl]
  unfold cornerTree
  simp only [treeParts]
  rw [childNat_head, childNat_skip _ _ (by decide), childNat_head, childNat_skip _ _ (by decide),
    childNat_skip _ _ (by decide), childNat_head, childNat_skip _ _ (by decide),
    childNat_skip _ _ (by decide), childNat_skip _ _ (by decide), childNat_head]

/-! ### Names, links and sizes -/

theorem relStr_safe (n : Nat) : attrSafe (relStr n) = true := by
  unfold relStr
  exact attrSafe_append (by decide +kernel) (showNat_attrSafe n)

theorem hlink_ok {l : Nat × Str} (h : attrSafe l.2 = true) : treeOk (hlinkTree l) = true := by
  unfold hlinkTree
  refine treeOk_empty (by decide +kernel) ?_
  have hs : attrsGood (if l.2 = [] then [] else [("tooltip".toList, l.2)]) := by
    split
    · exact attrsGood_nil
    · exact attrsGood_one (by decide +kernel) h
  have hn : ∀ k : Str, k ≠ "tooltip".toList → k ∉ ((if l.2 = [] then [] else [("tooltip".toList, l.2)]) : Attrs).map Prod.fst := by
    intro k hk
    split
    · simp
    · simpa using hk
  refine attrsGood_cons (attrOk_of (by decide +kernel) (by decide +kernel)) (attrsGood_cons (attrOk_of (by decide +kernel) (relStr_safe _)) hs (hn _ (by decide))) ?_
  show "xmlns:r".toList ∉ List.map Prod.fst (("r:id".toList, relStr l.1) :: (if l.2 = [] then [] else [("tooltip".toList, l.2)]))
  rw [List.map_cons, List.mem_cons, not_or]
  dsimp only
  exact ⟨by decide, hn _ (by decide)⟩

theorem hlink_attrs (l : Nat × Str) : (treeParts (hlinkTree l)).1.lookup "r:id".toList = some (relStr l.1) ∧
    ((treeParts (hlinkTree l)).1.lookup "tooltip".toList).getD [] = l.2 := by
  unfold hlinkTree
  simp only [treeParts]
  refine ⟨by rw [List.cons_append, look_ne (by decide), List.cons_append, look_eq], ?_⟩
  rw [List.cons_append, look_ne (by decide), List.cons_append, look_ne (by decide), List.nil_append]
  split
  · rename_i h; rw [h]; rfl
  · rw [look_eq]; rfl

theorem drawName_safe {d : DrawInfo} (h : attrSafe d.name = true) (i : Nat) : attrSafe (d.shownName i) = true := by
  have e : ∀ s : Str, attrSafe s = true → attrSafe (s ++ ' ' :: showNat i) = true := by
    intro s hs
    refine attrSafe_append hs ?_
    rw [attrSafe_cons, showNat_attrSafe]; decide
  unfold DrawInfo.shownName
  split
  · exact e _ (by decide +kernel)
  · split
    · exact e _ (by decide +kernel)
    · exact h
  · split
    · exact e _ (by decide +kernel)
    · exact h

/-- What is written in the properties of an object. -/
def DrawInfo.nvKids (d : DrawInfo) : List Tree :=
  (match d.link with | some l => [hlinkTree l] | none => []) ++ if d.decorative then [decorativeTree] else []

theorem nv_parts (d : DrawInfo) (i : Nat) : treeParts (d.nvTree i) = (d.nvAttrs i, toNodes d.nvKids) := by
  unfold DrawInfo.nvTree DrawInfo.nvKids
  by_cases h : (d.decorative || d.link.isSome) = true
  · rw [if_pos h]; rfl
  · rw [if_neg h]
    have h1 : d.decorative = false := by cases e : d.decorative <;> simp_all
    have h2 : d.link = none := by cases e : d.link <;> simp_all
    rw [h1, h2]; rfl

theorem nv_tag (d : DrawInfo) (i : Nat) : treeTag (d.nvTree i) = "xdr:cNvPr".toList := by
  unfold DrawInfo.nvTree
  split <;> rfl

theorem nvAttrs_good {d : DrawInfo} (h1 : attrSafe d.name = true) (h2 : attrSafe d.description = true) (i : Nat) :
    attrsGood (d.nvAttrs i) := by
  unfold DrawInfo.nvAttrs
  have hs : attrsGood (if d.description = [] then [] else [("descr".toList, d.description)]) := by
    split
    · exact attrsGood_nil
    · exact attrsGood_one (by decide +kernel) h2
  have hn : ∀ k : Str, k ≠ "descr".toList →
      k ∉ ((if d.description = [] then [] else [("descr".toList, d.description)]) : Attrs).map Prod.fst := by
    intro k hk
    split
    · simp
    · simpa using hk
  refine attrsGood_cons (attrOk_of (by decide +kernel) (showNat_attrSafe _)) (attrsGood_cons (attrOk_of (by decide +kernel) (drawName_safe h1 i)) hs (hn _ (by decide))) ?_
  show "id".toList ∉ List.map Prod.fst (("name".toList, d.shownName i) :: (if d.description = [] then [] else [("descr".toList, d.description)]))
  rw [List.map_cons, List.mem_cons, not_or]
  dsimp only
  exact ⟨by decide, hn _ (by decide)⟩

theorem nv_ok {d : DrawInfo} (h1 : attrSafe d.name = true) (h2 : attrSafe d.description = true)
    (h3 : ∀ l, d.link = some l → attrSafe l.2 = true) (i : Nat) : treeOk (d.nvTree i) = true := by
  unfold DrawInfo.nvTree
  split
  · refine treeOk_node (by decide +kernel) (nvAttrs_good h1 h2 i) (ok_append ?_ ?_)
    · split
      · rename_i l e; exact ok_single (hlink_ok (h3 l e))
      · exact ok_nil
    · split
      · exact ok_single (by decide +kernel)
      · exact ok_nil
  · exact treeOk_empty (by decide +kernel) (nvAttrs_good h1 h2 i)

theorem nv_link (d : DrawInfo) : readHlink (toNodes d.nvKids) =
    some (d.link.map fun l => ("rId".toList ++ showNat l.1, l.2)) := by
  unfold readHlink DrawInfo.nvKids
  cases d.link with
  | none =>
    have : child "a:hlinkClick".toList (toNodes ([] ++ if d.decorative = true then [decorativeTree] else [])) = none := by
      cases d.decorative <;> rfl
    dsimp only
    rw [this]; rfl
  | some l =>
    dsimp only
    obtain ⟨e1, e2⟩ := hlink_attrs l
    rw [List.singleton_append, child_head (t := "a:hlinkClick".toList) _ _ rfl]
    dsimp only
    rw [e1, e2]; rfl

theorem nv_decorative (d : DrawInfo) : readDecorative (toNodes d.nvKids) = d.decorative := by
  have e : ∀ b : Bool, readDecorative (toNodes (if b = true then [decorativeTree] else [])) = b := by decide +kernel
  unfold DrawInfo.nvKids
  cases d.link with
  | none => exact e _
  | some l =>
    dsimp only
    refine Eq.trans ?_ (e d.decorative)
    unfold readDecorative
    rw [List.singleton_append, child_skip (hlinkTree l) _ (by show "a:hlinkClick".toList ≠ _; decide)]

theorem nv_attrs (d : DrawInfo) (i : Nat) : attrNat "id".toList (d.nvAttrs i) = some (i + 1) ∧
    (d.nvAttrs i).lookup "name".toList = some (d.shownName i) ∧
    ((d.nvAttrs i).lookup "descr".toList).getD [] = d.description := by
  unfold DrawInfo.nvAttrs
  refine ⟨attrNat_one _ _ _, by rw [List.cons_append, look_ne (by decide), List.cons_append, look_eq], ?_⟩
  rw [List.cons_append, look_ne (by decide), List.cons_append, look_ne (by decide), List.nil_append]
  split
  · rename_i h; rw [h]; rfl
  · rw [look_eq]; rfl

/-- The properties of an object read back. -/
theorem read_props {d : DrawInfo} (i : Nat) (t : Text) (as : Attrs) (x : List Tree) (r : List Tree) :
    readProps t (toNodes (.node t as (d.nvTree i :: x) :: r)) = some
      { id := i + 1, name := d.shownName i, descr := d.description
        link := d.link.map fun l => ("rId".toList ++ showNat l.1, l.2), decorative := d.decorative } := by
  obtain ⟨e1, e2, e3⟩ := nv_attrs d i
  unfold readProps
  rw [child_head (t := t) _ _ rfl, Option.bind_some]
  simp only [treeParts]
  rw [child_head (t := "xdr:cNvPr".toList) _ _ (nv_tag d i)]
  dsimp only
  rw [nv_parts]
  dsimp only
  rw [e1, e2, e3, nv_link, nv_decorative]

theorem xfrm_ok (d : DrawInfo) : treeOk d.xfrmTree = true := by
  unfold DrawInfo.xfrmTree
  refine treeOk_node (by decide +kernel) attrsGood_nil (ok_cons (treeOk_empty (by decide +kernel) ?_) (ok_single (treeOk_empty (by decide +kernel) ?_)))
  · exact two_good (by decide +kernel) (by decide +kernel) (showNat_attrSafe _) (showNat_attrSafe _) (by decide +kernel)
  · exact two_good (by decide +kernel) (by decide +kernel) (showNat_attrSafe _) (showNat_attrSafe _) (by decide +kernel)

theorem read_xfrm (d : DrawInfo) (x : List Tree) (r : List Tree) :
    readXfrm (toNodes (.node "xdr:spPr".toList [] (d.xfrmTree :: x) :: r)) =
      some (d.colAbs, d.rowAbs, d.width, d.height) := by
  have e1 : attrsOf "a:off".toList (treeParts d.xfrmTree).2 = [("x".toList, showNat d.colAbs), ("y".toList, showNat d.rowAbs)] := by
    unfold attrsOf DrawInfo.xfrmTree
    simp only [treeParts]
    rw [child_head (t := "a:off".toList) _ _ rfl]; rfl
  have e2 : attrsOf "a:ext".toList (treeParts d.xfrmTree).2 = [("cx".toList, showNat d.width), ("cy".toList, showNat d.height)] := by
    unfold attrsOf DrawInfo.xfrmTree
    simp only [treeParts]
    rw [child_skip (.empty "a:off".toList _) _ (by decide : "a:off".toList ≠ _), child_head (t := "a:ext".toList) _ _ rfl]; rfl
  have two : ∀ (a b : Str) (m n : Nat), b ≠ a → attrNat b [(a, showNat m), (b, showNat n)] = some n := by
    intro a b m n h
    unfold attrNat
    rw [look_ne h, look_eq, Option.bind_some, readNat_showNat]
  unfold readXfrm
  rw [child_head (t := "xdr:spPr".toList) _ _ rfl, Option.bind_some,
    show (treeParts (.node "xdr:spPr".toList [] (d.xfrmTree :: x))).2 = toNodes (d.xfrmTree :: x) from rfl,
    child_head (t := "a:xfrm".toList) _ _ rfl]
  dsimp only
  rw [e1, e2, attrNat_one, attrNat_one, two _ _ _ _ (by decide), two _ _ _ _ (by decide)]

/-! ### Objects -/

/-- The properties that are read. -/
def propsOf (d : DrawInfo) (i : Nat) : ThingProps :=
  { id := i + 1, name := d.shownName i, descr := d.description
    link := d.link.map fun l => ("rId".toList ++ showNat l.1, l.2), decorative := d.decorative }

theorem pic_ok {d : DrawInfo} {i : Nat} (hn : treeOk (d.nvTree i) = true) : treeOk (d.picTree i) = true := by
  unfold DrawInfo.picTree
  refine treeOk_node (by decide +kernel) attrsGood_nil (ok_cons ?_ (ok_cons ?_ (ok_single ?_)))
  · exact treeOk_node (by decide +kernel) attrsGood_nil (ok_cons hn (ok_single (by decide +kernel)))
  · refine treeOk_node (by decide +kernel) attrsGood_nil (ok_cons (treeOk_empty (by decide +kernel) ?_) (ok_single (by decide +kernel)))
    exact two_good (by decide +kernel) (by decide +kernel) (by decide +kernel) (relStr_safe _) (by decide +kernel)
  · exact treeOk_node (by decide +kernel) attrsGood_nil (ok_cons (xfrm_ok d) (ok_single (by decide +kernel)))

theorem read_pic (d : DrawInfo) (i : Nat) (r : List Tree) : readThing (toNodes (d.picTree i :: r)) =
    some (propsOf d i, .picture (relStr d.relId) d.colAbs d.rowAbs d.width d.height) := by
  have e2 : ((child "xdr:blipFill".toList (treeParts (d.picTree i)).2).bind fun b => child "a:blip".toList b.2).bind
      (fun b => b.1.lookup "r:embed".toList) = some (relStr d.relId) := by
    unfold DrawInfo.picTree
    simp only [treeParts]
    rw [child_skip (.node "xdr:nvPicPr".toList [] _) _ (by decide : "xdr:nvPicPr".toList ≠ _),
      child_head (t := "xdr:blipFill".toList) _ _ rfl, Option.bind_some]
    simp only [treeParts]
    rw [child_head (t := "a:blip".toList) _ _ rfl, Option.bind_some]
    simp only [treeParts]
    rw [look_ne (by decide), look_eq]
  have e1 : readProps "xdr:nvPicPr".toList (treeParts (d.picTree i)).2 = some (propsOf d i) := by
    unfold DrawInfo.picTree
    simp only [treeParts]
    exact read_props i _ _ _ _
  have e3 : readXfrm (treeParts (d.picTree i)).2 = some (d.colAbs, d.rowAbs, d.width, d.height) := by
    rw [← read_xfrm d [prstGeomTree] []]
    unfold DrawInfo.picTree readXfrm
    simp only [treeParts]
    rw [child_skip (.node "xdr:nvPicPr".toList [] _) _ (by decide : "xdr:nvPicPr".toList ≠ _),
      child_skip (.node "xdr:blipFill".toList [] _) _ (by decide : "xdr:blipFill".toList ≠ _)]
  unfold readThing
  rw [child_head (t := "xdr:pic".toList) _ _ rfl]
  dsimp only
  rw [e1, e2, e3]

theorem graphic_ok (n : Nat) : treeOk (graphicTree n) = true := by
  unfold graphicTree
  refine treeOk_node (by decide +kernel) attrsGood_nil (ok_single (treeOk_node (by decide +kernel) (attrsGood_one (by decide +kernel) (by decide +kernel)) (ok_single (treeOk_empty (by decide +kernel) ?_))))
  refine attrsGood_cons (attrOk_of (by decide +kernel) (by decide +kernel)) (two_good (by decide +kernel) (by decide +kernel) (by decide +kernel) (relStr_safe _) (by decide +kernel)) ?_
  simp only [List.map_cons, List.map_nil]
  decide

theorem frame_ok {d : DrawInfo} {i : Nat} (hn : treeOk (d.nvTree i) = true) (cs : Bool) : treeOk (d.frameTree cs i) = true := by
  unfold DrawInfo.frameTree
  refine treeOk_node (by decide +kernel) (attrsGood_one (by decide +kernel) (by decide +kernel)) (ok_cons ?_ (ok_cons (by decide +kernel) (ok_single (graphic_ok _))))
  refine treeOk_node (by decide +kernel) attrsGood_nil (ok_cons hn (ok_single ?_))
  cases cs <;> decide +kernel

theorem read_chartRel (n : Nat) : readChartRel (toNodes [graphicTree n]) = some (relStr n) := by
  unfold readChartRel graphicTree
  rw [child_head (t := "a:graphic".toList) _ _ rfl, Option.bind_some]
  simp only [treeParts]
  rw [child_head (t := "a:graphicData".toList) _ _ rfl, Option.bind_some]
  simp only [treeParts]
  rw [child_head (t := "c:chart".toList) _ _ rfl, Option.bind_some]
  simp only [treeParts]
  rw [look_ne (by decide), look_ne (by decide), look_eq]

theorem read_frame (d : DrawInfo) (cs : Bool) (i : Nat) (r : List Tree) (hr : child "xdr:pic".toList (toNodes r) = none) :
    readThing (toNodes (d.frameTree cs i :: r)) = some (propsOf d i, .chart (relStr d.relId)) := by
  have e1 : readProps "xdr:nvGraphicFramePr".toList (treeParts (d.frameTree cs i)).2 = some (propsOf d i) := by
    unfold DrawInfo.frameTree
    simp only [treeParts]
    exact read_props i _ _ _ _
  have e2 : readChartRel (treeParts (d.frameTree cs i)).2 = some (relStr d.relId) := by
    rw [← read_chartRel]
    unfold readChartRel DrawInfo.frameTree
    simp only [treeParts]
    rw [child_skip (.node "xdr:nvGraphicFramePr".toList [] _) _ (by decide : "xdr:nvGraphicFramePr".toList ≠ _),
      child_skip (.node "xdr:xfrm".toList [] _) _ (by decide : "xdr:xfrm".toList ≠ _)]
  unfold readThing
  rw [child_skip (d.frameTree cs i) _ (by show "xdr:graphicFrame".toList ≠ _; decide), hr]
  dsimp only
  rw [child_head (t := "xdr:graphicFrame".toList) _ _ rfl]
  dsimp only
  rw [e1, e2]

theorem read_sp {s : Shape} (h : ShapeGood s) (d : DrawInfo) (i : Nat) (r : List Tree)
    (hr1 : child "xdr:pic".toList (toNodes r) = none) (hr2 : child "xdr:graphicFrame".toList (toNodes r) = none) :
    ∃ b, readThing (toNodes (d.spTree s i :: r)) = some (propsOf d i, .box b d.colAbs d.rowAbs d.width d.height) ∧
      BoxMeant s b := by
  obtain ⟨b, eb, hb⟩ := read_box h d i
  refine ⟨b, ?_, hb⟩
  have e1 : readProps "xdr:nvSpPr".toList (treeParts (d.spTree s i)).2 = some (propsOf d i) := by
    unfold DrawInfo.spTree
    simp only [treeParts]
    exact read_props i _ _ _ _
  have e3 : readXfrm (treeParts (d.spTree s i)).2 = some (d.colAbs, d.rowAbs, d.width, d.height) := by
    rw [← read_xfrm d [prstGeomTree, shapeFillTree s.format, outlineTree s.format] [shapeStyleTree, s.bodyTree]]
    unfold DrawInfo.spTree readXfrm
    simp only [treeParts]
    rw [child_skip (.node "xdr:nvSpPr".toList [] _) _ (by decide : "xdr:nvSpPr".toList ≠ _)]
  unfold readThing
  rw [child_skip (d.spTree s i) _ (by show "xdr:sp".toList ≠ _; decide), hr1]
  dsimp only
  rw [child_skip (d.spTree s i) _ (by show "xdr:sp".toList ≠ _; decide), hr2]
  dsimp only
  rw [child_head (t := "xdr:sp".toList) _ _ rfl]
  dsimp only
  rw [e1, eb, e3]

/-! ### Anchors -/

/-- The parts of `infoOk`. -/
structure InfoGood (d : DrawInfo) : Prop where
  name : attrSafe d.name = true
  descr : attrSafe d.description = true
  link : ∀ l, d.link = some l → attrSafe l.2 = true
  shape : ∀ s, d.kind = .shape s → ShapeGood s ∧ d.name = []

theorem infoGood_of {d : DrawInfo} (h : infoOk d = true) : InfoGood d := by
  unfold infoOk at h
  simp only [Bool.and_eq_true] at h
  obtain ⟨⟨⟨h1, h2⟩, h3⟩, h4⟩ := h
  refine ⟨h1, h2, fun l e => ?_, fun s e => ?_⟩
  · rw [e] at h3; exact h3
  · rw [e] at h4
    dsimp only at h4
    rw [Bool.and_eq_true] at h4
    exact ⟨shapeGood_of h4.1, of_decide_eq_true h4.2⟩

theorem anchor_ok {d : DrawInfo} (h : InfoGood d) (i : Nat) : treeOk (d.anchorTree i) = true := by
  have hn := nv_ok h.name h.descr h.link i
  unfold DrawInfo.anchorTree
  refine treeOk_node (by decide +kernel) ?_ (ok_cons (corner_ok (by decide +kernel) _) (ok_cons (corner_ok (by decide +kernel) _) (ok_cons ?_ (ok_single (by decide +kernel)))))
  · cases d.movement <;> exact ⟨by decide +kernel, by decide +kernel⟩
  · unfold DrawInfo.objectTree
    split
    · exact pic_ok hn
    · exact frame_ok hn false
    · rename_i s e
      exact spTree_ok (h.shape s e).1 hn (xfrm_ok d)

theorem read_editAs (m : Movement) : readEditAs m.attrs = some (movementMeant m) := by cases m <;> decide +kernel

theorem shownName_meant {d : DrawInfo} (h : InfoGood d) (i : Nat) :
    d.shownName i = if d.name = [] then kindName d.kind ++ ' ' :: showNat i else d.name := by
  unfold DrawInfo.shownName
  cases e : d.kind with
  | shape s =>
    show "TextBox".toList ++ ' ' :: showNat i = if d.name = [] then "TextBox".toList ++ ' ' :: showNat i else d.name
    rw [if_pos (h.shape s e).2]
  | image => rfl
  | chart => rfl

theorem read_anchor {d : DrawInfo} (h : InfoGood d) (i : Nat) :
    ∃ a, readAnchor (treeParts (d.anchorTree i)) = some a ∧ AnchorMeant i d a := by
  have hc : ∀ (t : Text) (r : List Tree), "xdr:from".toList ≠ t → "xdr:to".toList ≠ t →
      child t (toNodes (cornerTree "xdr:from".toList d.fromC :: cornerTree "xdr:to".toList d.toC :: r)) = child t (toNodes r) := by
    intro t r h1 h2
    rw [child_skip (cornerTree "xdr:from".toList d.fromC) _ h1, child_skip (cornerTree "xdr:to".toList d.toC) _ h2]
  have ht : ∀ r, readThing (toNodes (cornerTree "xdr:from".toList d.fromC :: cornerTree "xdr:to".toList d.toC :: r)) =
      readThing (toNodes r) := by
    intro r
    unfold readThing
    rw [hc _ _ (by decide) (by decide), hc _ _ (by decide) (by decide), hc _ _ (by decide) (by decide)]
  have e2 : readCorner "xdr:to".toList (toNodes [cornerTree "xdr:from".toList d.fromC, cornerTree "xdr:to".toList d.toC,
      d.objectTree i, .empty "xdr:clientData".toList []]) = some d.toC := by
    rw [← read_corner "xdr:to".toList d.toC [d.objectTree i, .empty "xdr:clientData".toList []]]
    unfold readCorner
    rw [child_skip (cornerTree "xdr:from".toList d.fromC) _ (by show "xdr:from".toList ≠ _; decide)]
  have key : ∀ g, readThing (toNodes [d.objectTree i, .empty "xdr:clientData".toList []]) = some (propsOf d i, g) →
      readAnchor (treeParts (d.anchorTree i)) =
        some ⟨(movementMeant d.movement).1, (movementMeant d.movement).2, d.fromC, d.toC, propsOf d i, g⟩ := by
    intro g hg
    unfold readAnchor DrawInfo.anchorTree
    simp only [treeParts]
    rw [read_editAs, read_corner, e2, ht, hg]
  have meant : ∀ g, (match d.kind with
      | .image => g = .picture ("rId".toList ++ showNat d.relId) d.colAbs d.rowAbs d.width d.height
      | .chart => g = .chart ("rId".toList ++ showNat d.relId)
      | .shape s => ∃ b, g = ThingSeen.box b d.colAbs d.rowAbs d.width d.height ∧ BoxMeant s b) →
      AnchorMeant i d ⟨(movementMeant d.movement).1, (movementMeant d.movement).2, d.fromC, d.toC, propsOf d i, g⟩ :=
    fun g hg => ⟨rfl, rfl, rfl, rfl, shownName_meant h i, rfl, rfl, rfl, hg⟩
  cases e : d.kind with
  | image =>
    refine ⟨_, key (.picture (relStr d.relId) d.colAbs d.rowAbs d.width d.height) ?_, meant _ ?_⟩
    · unfold DrawInfo.objectTree
      rw [e]
      exact read_pic d i _
    · rw [e]; rfl
  | chart =>
    refine ⟨_, key (.chart (relStr d.relId)) ?_, meant _ ?_⟩
    · unfold DrawInfo.objectTree
      rw [e]
      exact read_frame d false i _ rfl
    · rw [e]; rfl
  | shape s =>
    obtain ⟨b, hb, hm⟩ := read_sp (h.shape s e).1 d i [.empty "xdr:clientData".toList []] rfl rfl
    refine ⟨_, key (.box b d.colAbs d.rowAbs d.width d.height) ?_, meant _ ?_⟩
    · unfold DrawInfo.objectTree
      rw [e]
      exact hb
    · rw [e]; exact ⟨b, rfl, hm⟩

/-- The anchors that are read, in order. -/
theorem read_anchors (ds : List DrawInfo) (h : ∀ d ∈ ds, InfoGood d) (k : Nat) :
    ∃ as : List AnchorSeen, (ds.mapIdx fun i d => treeParts (d.anchorTree (i + k))).mapM readAnchor = some as ∧
      as.length = ds.length ∧
      ∀ (i : Nat) (d : DrawInfo) (a : AnchorSeen), ds[i]? = some d → as[i]? = some a → AnchorMeant (i + k) d a := by
  induction ds generalizing k with
  | nil => exact ⟨[], rfl, rfl, fun i d a hd => by simp at hd⟩
  | cons d ds ih =>
    obtain ⟨a, ea, ha⟩ := read_anchor (h d List.mem_cons_self) k
    obtain ⟨as, eas, hl, has⟩ := ih (fun x hx => h x (List.mem_cons_of_mem _ hx)) (k + 1)
    refine ⟨a :: as, ?_, by rw [List.length_cons, hl, List.length_cons], ?_⟩
    · rw [List.mapIdx_cons, List.mapM_cons, Nat.zero_add, ea]
      have : (ds.mapIdx fun i d => treeParts (d.anchorTree (i + 1 + k))) =
          ds.mapIdx fun i d => treeParts (d.anchorTree (i + (k + 1))) := by
        congr 1; funext i d; rw [Nat.add_assoc, Nat.add_comm 1 k]
      rw [this, eas]
      rfl
    · intro i d' a' hd' ha'
      cases i with
      | zero =>
        rw [List.getElem?_cons_zero] at hd' ha'
        cases hd'; cases ha'
        rw [Nat.zero_add]; exact ha
      | succ i =>
        rw [List.getElem?_cons_succ] at hd' ha'
        have := has i d' a' hd' ha'
        rw [Nat.add_assoc, Nat.add_comm 1 k]; exact this

theorem drawing_ok (ds : List DrawInfo) (h : ∀ d ∈ ds, InfoGood d) : treeOk (drawingTree ds) = true := by
  unfold drawingTree
  refine treeOk_node (by decide +kernel) ⟨by decide +kernel, by decide +kernel⟩ fun k hk => ?_
  rw [List.mem_mapIdx] at hk
  obtain ⟨i, hi, e⟩ := hk
  rw [← e]
  exact anchor_ok (h _ (List.getElem_mem hi)) _

/-- C71, C72. The drawing part of a worksheet is a document in which a reader finds the objects in order, each with
the cells and offsets, the movement, the number, name, description, link, decoration, relationship, position and size
that it was given, and each text box with the text, alignment, font, fill and line that was asked for.

Partial: the objects must satisfy `infoOk`; see the theorems below for what it leaves out. -/
theorem C71_drawing_partial (ds : List DrawInfo) (h : ds.all infoOk = true) :
    ∃ node as, parseDoc (writePart (drawingTree ds)) = some node ∧ readDrawing node = some as ∧
      as.length = ds.length ∧
      ∀ (i : Nat) (d : DrawInfo) (a : AnchorSeen), ds[i]? = some d → as[i]? = some a → AnchorMeant (i + 1) d a := by
  have hg : ∀ d ∈ ds, InfoGood d := fun d hd => infoGood_of (List.all_eq_true.mp h d hd)
  obtain ⟨as, e, hl, hm⟩ := read_anchors ds hg 1
  refine ⟨_, as, C07_part_roundtrip _ (drawing_ok ds hg), ?_, hl, hm⟩
  show (if "xdr:wsDr".toList ≠ "xdr:wsDr".toList then none
    else (elems "xdr:twoCellAnchor".toList (toNodes (ds.mapIdx fun i d => d.anchorTree (i + 1)))).mapM readAnchor) = some as
  rw [if_neg (by simp), elems_trees, List.filter_eq_self.mpr (fun x hx => by
    rw [List.mem_mapIdx] at hx
    obtain ⟨i, hi, e⟩ := hx
    rw [← e]; rfl), ← e]
  congr 1
  apply List.ext_getElem?
  intro i
  rw [List.getElem?_map, List.getElem?_mapIdx, List.getElem?_mapIdx, Option.map_map]
  rfl

/-- C72. A reader finds every text box of a drawing with the text (one paragraph for each line), alignment, direction,
font, fill, line and linked cell that were asked for, at its position.

Partial: see `C71_drawing_partial`. -/
theorem C72_box_partial (ds : List DrawInfo) (h : ds.all infoOk = true) (i : Nat) (d : DrawInfo) (s : Shape)
    (hd : ds[i]? = some d) (hk : d.kind = .shape s) :
    ∃ node as, parseDoc (writePart (drawingTree ds)) = some node ∧ readDrawing node = some as ∧
      ∃ (a : AnchorSeen) (b : BoxSeen), as[i]? = some a ∧ a.thing = .box b d.colAbs d.rowAbs d.width d.height ∧ BoxMeant s b := by
  obtain ⟨node, as, e1, e2, hl, hm⟩ := C71_drawing_partial ds h
  have hi : i < as.length := by
    rw [hl]; exact (List.getElem?_eq_some_iff.mp hd).1
  have ha : as[i]? = some as[i] := List.getElem?_eq_getElem hi
  have ht := (hm i d _ hd ha).thing
  rw [hk] at ht
  obtain ⟨b, eb, hb⟩ := ht
  exact ⟨node, as, e1, e2, _, b, ha, eb, hb⟩

/-- C71. No two objects of a drawing have the same number. -/
theorem C71_ids_distinct_partial (ds : List DrawInfo) (h : ds.all infoOk = true) :
    ∃ node as, parseDoc (writePart (drawingTree ds)) = some node ∧ readDrawing node = some as ∧
      (as.map (·.props.id)).Nodup := by
  obtain ⟨node, as, e1, e2, hl, hm⟩ := C71_drawing_partial ds h
  refine ⟨node, as, e1, e2, ?_⟩
  have : as.map (·.props.id) = (List.range as.length).map (· + 2) := by
    apply List.ext_getElem?
    intro i
    rw [List.getElem?_map, List.getElem?_map]
    by_cases hi : i < as.length
    · have ha : as[i]? = some as[i] := List.getElem?_eq_getElem hi
      have hd : ds[i]? = some ds[i] := List.getElem?_eq_getElem (hl ▸ hi)
      have := (hm i _ _ hd ha).id
      rw [ha, List.getElem?_range hi, Option.map_some, Option.map_some, this]
    · rw [List.getElem?_eq_none (by omega), List.getElem?_eq_none (by rw [List.length_range]; omega)]; rfl
  rw [this]
  exact List.Pairwise.map _ (fun a b hab e => hab (by omega)) List.nodup_range

/-- C71. The drawing part of a chartsheet has its chart. -/
theorem C71_chartsheet (d : DrawInfo) (portrait : Bool) (hk : d.kind = .chart) (h : infoOk d = true) :
    ∃ node p, parseDoc (writePart (chartsheetDrawingTree d portrait)) = some node ∧
      readSheetDrawing node = some [(p, .chart ("rId".toList ++ showNat d.relId))] ∧
      p.name = (if d.name = [] then "Chart 1".toList else d.name) ∧ p.descr = d.description ∧
      p.decorative = d.decorative := by
  have hg := infoGood_of h
  have hn := nv_ok hg.name hg.descr hg.link 1
  have hname : d.shownName 1 = if d.name = [] then "Chart 1".toList else d.name := by
    rw [shownName_meant hg, hk]
    split
    · decide +kernel
    · rfl
  have ok : treeOk (chartsheetDrawingTree d portrait) = true := by
    unfold chartsheetDrawingTree DrawInfo.absoluteTree
    refine treeOk_node (by decide +kernel) ⟨by decide +kernel, by decide +kernel⟩ (ok_single (treeOk_node (by decide +kernel) attrsGood_nil (ok_cons ?_ (ok_cons ?_ (ok_cons (frame_ok hn true) (ok_single (by decide +kernel)))))))
    · cases portrait <;> decide +kernel
    · cases portrait <;> decide +kernel
  refine ⟨_, propsOf d 1, C07_part_roundtrip _ ok, ?_, hname, rfl, rfl⟩
  show (if "xdr:wsDr".toList ≠ "xdr:wsDr".toList then none
    else (elems "xdr:absoluteAnchor".toList (toNodes [d.absoluteTree portrait])).mapM fun e => readThing e.2) = _
  rw [if_neg (by simp), elems_cons_eq (t := "xdr:absoluteAnchor".toList) _ rfl]
  have e0 : elems "xdr:absoluteAnchor".toList (toNodes []) = [] := rfl
  have e1 : readThing (treeParts (d.absoluteTree portrait)).2 = some (propsOf d 1, .chart (relStr d.relId)) := by
    rw [← read_frame d true 1 [.empty "xdr:clientData".toList []] rfl]
    unfold DrawInfo.absoluteTree
    simp only [treeParts]
    have hc : ∀ (t : Text) (p q : Attrs) (r : List Tree), "xdr:pos".toList ≠ t → "xdr:ext".toList ≠ t →
        child t (toNodes (.empty "xdr:pos".toList p :: .empty "xdr:ext".toList q :: r)) = child t (toNodes r) := by
      intro t p q r h1 h2
      rw [child_skip (.empty "xdr:pos".toList p) _ h1, child_skip (.empty "xdr:ext".toList q) _ h2]
    unfold readThing
    rw [hc _ _ _ _ (by decide) (by decide), hc _ _ _ _ (by decide) (by decide), hc _ _ _ _ (by decide) (by decide)]
  rw [e0, List.mapM_cons, e1]
  rfl

/-! ### What the setters allow -/

/-- C72. A line that was made with the setters has a valid colour and a transparency that can be written. -/
theorem C72_line_valid (calls : List LineCall) :
    (calls.foldl ShapeLine.exec {}).color.isValid = true ∧ (calls.foldl ShapeLine.exec {}).transparency ≤ 100 ∧
    (calls.foldl ShapeLine.exec {}).width ≤ 1584000 := by
  have h0 : (({} : ShapeLine)).color.isValid = true ∧ (({} : ShapeLine)).transparency ≤ 100 ∧ (({} : ShapeLine)).width ≤ 1584000 := by
    decide
  revert h0
  generalize ({} : ShapeLine) = l
  intro h0
  induction calls generalizing l with
  | nil => exact h0
  | cons c r ih =>
    apply ih
    cases c with
    | color c => unfold ShapeLine.exec; dsimp only; split; exact ⟨by assumption, h0.2⟩; exact h0
    | width w => unfold ShapeLine.exec; dsimp only; split; exact ⟨h0.1, h0.2.1, by assumption⟩; exact h0
    | transparency n => unfold ShapeLine.exec; dsimp only; split; exact ⟨h0.1, by assumption, h0.2.2⟩; exact h0
    | dash d => exact h0
    | hidden b => exact h0

/-- C72. Gradient stops that were accepted are valid, and there are at least two of them. -/
theorem C72_stops_valid (f : ShapeGradientFill) (stops : List GradientStop)
    (h : (f.setStops stops).stops ≠ f.stops) :
    2 ≤ (f.setStops stops).stops.length ∧ (f.setStops stops).stops.length ≤ 10 ∧
    ∀ s ∈ (f.setStops stops).stops, s.color.isValid = true ∧ s.position ≤ 100 := by
  unfold ShapeGradientFill.setStops at h ⊢
  dsimp only at h ⊢
  split at h
  · rename_i hl
    rw [if_pos hl]
    refine ⟨hl.1, hl.2, fun s hs => ?_⟩
    have := (List.mem_filter.mp hs).2
    rw [Bool.and_eq_true, decide_eq_true_eq] at this
    exact this
  · exact absurd rfl h

/-! ### What is lost -/

/-- A text box with a font. -/
def boxWith (f : ShapeFont) : DrawInfo := { fromC := ⟨0, 0, 0, 0⟩, toC := ⟨1, 0, 1, 0⟩, kind := .shape { text := "a".toList, font := f } }

/-- A text box with a text. -/
def boxText (t : Str) : DrawInfo := { fromC := ⟨0, 0, 0, 0⟩, toC := ⟨1, 0, 1, 0⟩, kind := .shape { text := t } }

/-- C72, finding F149. The strikethrough and the direction of a font are never written: the parts with and without
them are equal, whatever the rest of the font is. -/
theorem C72_strikethrough_lost (f : ShapeFont) (b : Bool) (r : Option Bool) :
    drawingTree [boxWith { f with strikethrough := b, rightToLeft := r }] = drawingTree [boxWith f] := rfl

/-- C72, finding F151. A line feed at the end of the text is lost, so that an empty last line is not shown. -/
theorem C72_last_line_lost :
    writePart (drawingTree [boxText "a\n".toList]) = writePart (drawingTree [boxText "a".toList]) ∧
    parasMeant { text := "a\n".toList } ≠ parasMeant { text := "a".toList } := by
  refine ⟨by rfl, by decide +kernel⟩

/-- C72, finding F150. A gradient fill whose stops were refused (here: none were set) is written without stops, which
no reader accepts. -/
theorem C72_gradient_without_stops :
    let d : DrawInfo := { boxText "a".toList with kind := .shape { text := "a".toList, format := { gradient := some (({} : ShapeGradientFill).setStops [⟨.red, 0⟩]) } } }
    ∃ node, parseDoc (writePart (drawingTree [d])) = some node ∧ readDrawing node = none := by
  intro d
  refine ⟨_, C07_part_roundtrip _ (by decide +kernel), by decide +kernel⟩

/-- C72, finding F152. A pattern fill that was set after a solid fill has no effect. -/
theorem C72_solid_fill_wins (f : ShapeFormat) (s : ShapeSolidFill) (p : ShapePatternFill) (g : ShapeGradientFill) :
    shapeFillTree { f with solid := some s, pattern := some p, gradient := some g } = shapeFillTree { f with solid := some s } := by
  unfold shapeFillTree
  dsimp only

/-! ### A case -/

/-- A picture with a link, a decorative chart and a text box with two lines. -/
def demoDrawing : List DrawInfo :=
  [{ fromC := ⟨1, 9525, 2, 0⟩, toC := ⟨3, 0, 8, 19050⟩, colAbs := 619125, rowAbs := 381000, width := 304800, height := 304800
     name := "logo".toList, description := "A <logo>".toList, relId := 2, link := some (1, "Home".toList) },
   { fromC := ⟨4, 0, 1, 0⟩, toC := ⟨12, 0, 15, 0⟩, kind := .chart, decorative := true, relId := 3, movement := .moveAndSize },
   { fromC := ⟨4, 0, 20, 0⟩, toC := ⟨7, 0, 26, 0⟩, movement := .dontMoveOrSize
     kind := .shape { text := "One & two\n\nthree".toList, halign := .center, valign := .middleCentered
                      font := { bold := true, size := 1400, color := .theme 4 1, name := "Arial".toList }
                      format := { gradient := some { stops := [⟨.red, 0⟩, ⟨.rgb 0x123456, 100⟩], angle := 45 }
                                  line := some { color := .blue, width := 2100, transparency := 25, dash := .dashDot } } } }]

theorem demoDrawing_ok : demoDrawing.all infoOk = true := by decide +kernel

theorem demoDrawing_reads : ((parseDoc (writePart (drawingTree demoDrawing))).bind readDrawing).map
    (fun as => as.map fun a => (a.props.id, a.props.name)) =
    some [(2, "logo".toList), (3, "Chart 2".toList), (4, "TextBox 3".toList)] := by
  have hg : ∀ d ∈ demoDrawing, InfoGood d := fun d hd => infoGood_of (List.all_eq_true.mp demoDrawing_ok d hd)
  rw [C07_part_roundtrip _ (drawing_ok demoDrawing hg)]
  decide +kernel

end Verif
