import Verif.Props.ChartFmt
import Verif.Props.Chart
/-!
C73: the elements of an axis read back.
-/
namespace Verif
open Spec

/-- An axis whose texts can be written. -/
structure AxisOpts.Ok (a : AxisOpts) : Prop where
  title : a.title.Ok
  noPara : a.title.ignorePara = false
  format : cFormatOk a.format = true
  font : ∀ f, a.font = some f → cFontOk f = true
  majorLine : ∀ l, a.majorGridLine = some l → l.color.isValid = true
  minorLine : ∀ l, a.minorGridLine = some l → l.color.isValid = true
  numFormat : attrSafe a.numFormat = true
  max : attrSafe a.max = true
  min : attrSafe a.min = true
  majorUnit : attrSafe a.majorUnit = true
  minorUnit : attrSafe a.minorUnit = true
  crossing : ∀ v, a.crossing = .value v → attrSafe v = true

/-! ### Values of sections -/

theorem ifVal_val (p : Prop) [Decidable p] (t v : Str) :
    (((some (if p then [valText t v] else [])).bind List.head?).map treeParts).bind (fun e => e.1.lookup "val".toList) =
      if p then some v else none := by
  split
  · show List.lookup "val".toList [("val".toList, v)] = some v
    exact look_eq _ _ _
  · rfl

theorem oneVal_val (t v : Str) :
    (((some [valText t v]).bind List.head?).map treeParts).bind (fun e => e.1.lookup "val".toList) = some v := by
  show List.lookup "val".toList [("val".toList, v)] = some v
  exact look_eq _ _ _

theorem textVal_val (t s : Str) :
    (((some (textVal t s)).bind List.head?).map treeParts).bind (fun e => e.1.lookup "val".toList) = if s ≠ [] then some s else none :=
  ifVal_val _ _ _

theorem textVal_ok {t s : Str} (ht : isName t = true) (h : attrSafe s = true) : ∀ x ∈ textVal t s, treeOk x = true ∧ treeTag x = t := by
  unfold textVal
  exact if_ok (valText_ok ht h) rfl

theorem ifs_ok {b : Prop} [Decidable b] {ts : List Tree} {t : Str} (h : ∀ y ∈ ts, treeOk y = true ∧ treeTag y = t) :
    ∀ y ∈ (if b then ts else []), treeOk y = true ∧ treeTag y = t := by
  split
  · exact h
  · intro y hy; cases hy

theorem secsOk_append {a b : List (Str × List Tree)} (ha : SecsOk a) (hb : SecsOk b) : SecsOk (a ++ b) := by
  intro p hp
  rcases List.mem_append.mp hp with h | h
  · exact ha p h
  · exact hb p h

theorem secsOk_nil : SecsOk [] := nofun

/-! ### Sections of an axis -/

theorem label_text (p : LabelPlace) : p.text = labelName p := by cases p <;> rfl

theorem tick_text (t : TickType) : t.text = tickName t := by cases t <;> rfl

theorem time_text (t : DateUnit) : t.text = timeName t := by cases t <;> rfl

theorem align_text (t : LabelAlign) : t.text = alignName t := by cases t <;> rfl

theorem unit_text {t : DisplayUnit} (h : t ≠ .none) : t.text = unitName t := by cases t <;> first | rfl | exact absurd rfl h

theorem scaling_secs {a : AxisOpts} (h : a.Ok) : SecsOk a.scalingSecs := by
  unfold AxisOpts.scalingSecs
  refine secsOk_cons (if_ok (valText_ok (by decide +kernel) (showNat_attrSafe _)) rfl) (secsOk_cons (one_ok (valText_ok (by decide +kernel) ?_) rfl)
    (secsOk_cons (if_ok (valText_ok (by decide +kernel) h.max) rfl) (secsOk_cons (if_ok (valText_ok (by decide +kernel) h.min) rfl) nofun)))
  split <;> decide +kernel

theorem scaling_nodup (a : AxisOpts) : (a.scalingSecs.map Prod.fst).Nodup := by
  show (["c:logBase".toList, "c:orientation".toList, "c:max".toList, "c:min".toList] : List Str).Nodup
  decide +kernel

theorem grid_ok {t : Str} (ht : isName t = true) {on : Bool} {line : Option CLine} (h : ∀ l, line = some l → l.color.isValid = true) :
    ∀ x ∈ gridTrees t on line, treeOk x = true ∧ treeTag x = t := by
  unfold gridTrees
  split
  · cases line with
    | none => exact one_ok (treeOk_empty ht attrsGood_nil) rfl
    | some l => exact one_ok (treeOk_node ht attrsGood_nil (ok_single (treeOk_node (by decide +kernel) attrsGood_nil
        (ok_single (cLine_ok (h l rfl)))))) rfl
  · intro y hy; cases hy

theorem grid_read {on : Bool} {line : Option CLine} (t : Str) (h : ∀ l, line = some l → l.color.isValid = true) :
    ∃ k, (match ((some (gridTrees t on line)).bind List.head?).map treeParts with
      | none => some none
      | some e => (readGrid e).map some) = some k ∧ GridMeant on line k := by
  unfold gridTrees GridMeant
  cases on with
  | false => exact ⟨none, rfl, rfl⟩
  | true =>
    simp only [if_true]
    cases line with
    | none => exact ⟨some none, rfl, rfl⟩
    | some l =>
      obtain ⟨k, hk, hm⟩ := cLine_read (h l rfl)
      refine ⟨some (some k), ?_, k, rfl, hm⟩
      show (readGrid ([], toNodes [.node "c:spPr".toList [] [l.tree]])).map some = _
      unfold readGrid readFormatIn optChild
      rw [child_head (t := "c:spPr".toList) _ _ rfl]
      show Option.map some (Option.map _ (Option.map _ (Option.map some (readFormat ([], toNodes [l.tree]))))) = _
      have e : readFormat ([], toNodes [l.tree]) = some ⟨none, some k⟩ := by
        unfold readFormat optChild
        dsimp only
        rw [child_head (t := "a:ln".toList) _ _ (cLine_tag l)]
        dsimp only
        rw [hk, maybe_none (child_skip l.tree _ (by rw [cLine_tag]; decide)) (child_skip l.tree _ (by rw [cLine_tag]; decide))
          (child_skip l.tree _ (by rw [cLine_tag]; decide)) (child_skip l.tree _ (by rw [cLine_tag]; decide))]
        rfl
      rw [e]; rfl

theorem code_ok {s : Str} (h : attrSafe s = true) (b : Bool) : treeOk (codeTree s b) = true :=
  treeOk_empty (by decide +kernel) (two_good (by decide +kernel) (by decide +kernel) h (onOff_safe b) (by decide +kernel))

theorem side_ok (s : AxisSide) (r : Bool) (c : Crossing) : treeOk (axPosTree s r c) = true := by
  unfold axPosTree
  refine valText_ok (by decide +kernel) ?_
  split <;> cases s <;> decide +kernel

theorem pre_secs {a other : AxisOpts} (h : a.Ok) : SecsOk (a.preSecs other) := by
  unfold AxisOpts.preSecs
  exact secsOk_cons (one_ok (treeOk_node (by decide +kernel) attrsGood_nil (ok_of_secs (scaling_secs h))) rfl)
    (secsOk_cons (if_ok (by decide +kernel) rfl) (secsOk_cons (one_ok (side_ok _ _ _) rfl)
      (secsOk_cons (grid_ok (by decide +kernel) h.majorLine) (secsOk_cons (grid_ok (by decide +kernel) h.minorLine) nofun))))

theorem tick_safe (o : Option TickType) : ∀ v, o.map TickType.text = some v → attrSafe v = true := by
  intro v e
  cases o with
  | none => cases e
  | some t =>
    cases e
    cases t <;> decide +kernel

theorem mid_secs {a : AxisOpts} (h : a.Ok) {n : List Tree} (hn : ∀ x ∈ n, treeOk x = true ∧ treeTag x = "c:numFmt".toList) :
    SecsOk (a.midSecs n) := by
  unfold AxisOpts.midSecs
  refine secsOk_cons hn (secsOk_cons (optVal_ok (by decide +kernel) (tick_safe _)) (secsOk_cons (optVal_ok (by decide +kernel) (tick_safe _))
    (secsOk_cons (one_ok (valText_ok (by decide +kernel) ?_) rfl) (secsOk_cons (cFormat_ok h.format) (secsOk_cons (opt_ok ?_) nofun)))))
  · cases a.labelPlace <;> decide +kernel
  · intro x hx
    cases e : a.font with
    | none => rw [e] at hx; cases hx
    | some f =>
      rw [e] at hx
      cases hx
      exact ⟨txPr_ok (h.font f e) _, rfl⟩

theorem skip_secs (a : AxisOpts) : SecsOk a.skipSecs := by
  unfold AxisOpts.skipSecs
  exact secsOk_cons (if_ok (valText_ok (by decide +kernel) (showNat_attrSafe _)) rfl)
    (secsOk_cons (if_ok (valText_ok (by decide +kernel) (showNat_attrSafe _)) rfl) nofun)

theorem catCrosses_secs {a other : AxisOpts} (h : other.Ok) (ctx : AxisCtx) : SecsOk (a.catCrosses other ctx) := by
  unfold AxisOpts.catCrosses
  dsimp only
  refine secsOk_cons (ifs_ok ?_) (secsOk_cons (ifs_ok ?_) nofun)
  · split
    · intro y hy; cases hy
    · exact one_ok (by decide +kernel) rfl
    · rename_i c h1 h2
      refine one_ok (valText_ok (by decide +kernel) ?_) rfl
      revert h1 h2
      cases other.crossing with
      | value v => intro h1; exact absurd rfl (h1 v)
      | category n => intro _ h2; exact absurd rfl (h2 n)
      | _ => intros; decide +kernel
  · split
    · rename_i v e
      exact one_ok (valText_ok (by decide +kernel) (h.crossing v e)) rfl
    · intro y hy; cases hy

theorem valCrosses_secs {other : AxisOpts} (h : other.Ok) : SecsOk (valCrosses other) := by
  unfold valCrosses
  refine secsOk_cons ?_ (secsOk_cons ?_ nofun)
  · split
    · intro y hy; cases hy
    · intro y hy; cases hy
    · rename_i c h1 h2
      refine one_ok (valText_ok (by decide +kernel) ?_) rfl
      revert h1 h2
      cases other.crossing with
      | value v => intro h1; exact absurd rfl (h1 v)
      | category n => intro _ h2; exact absurd rfl (h2 n)
      | _ => intros; decide +kernel
  · split
    · rename_i v e
      exact one_ok (valText_ok (by decide +kernel) (h.crossing v e)) rfl
    · exact one_ok (valText_ok (by decide +kernel) (showNat_attrSafe _)) rfl
    · intro y hy; cases hy

theorem catPost_secs {a other : AxisOpts} (h : other.Ok) (ctx : AxisCtx) : SecsOk (a.catPost other ctx) := by
  unfold AxisOpts.catPost
  refine secsOk_append (secsOk_append (catCrosses_secs h ctx) (secsOk_cons (if_ok' (by decide +kernel) rfl)
    (secsOk_cons (one_ok (valText_ok (by decide +kernel) ?_) rfl) (secsOk_cons (one_ok (by decide +kernel) rfl) nofun)))) (skip_secs a)
  cases a.labelAlign <;> decide +kernel

theorem time_safe (o : Option DateUnit) : ∀ v, o.map DateUnit.text = some v → attrSafe v = true := by
  intro v e
  cases o with
  | none => cases e
  | some t =>
    cases e
    cases t <;> decide +kernel

theorem datePost_secs {a other : AxisOpts} (ha : a.Ok) (h : other.Ok) (ctx : AxisCtx) : SecsOk (a.datePost other ctx) := by
  unfold AxisOpts.datePost
  exact secsOk_append (secsOk_append (secsOk_append (catCrosses_secs h ctx) (secsOk_cons (if_ok (by decide +kernel) rfl)
    (secsOk_cons (one_ok (by decide +kernel) rfl) nofun))) (skip_secs a))
    (secsOk_cons (textVal_ok (by decide +kernel) ha.majorUnit) (secsOk_cons (optVal_ok (by decide +kernel) (time_safe _))
      (secsOk_cons (textVal_ok (by decide +kernel) ha.minorUnit) (secsOk_cons (optVal_ok (by decide +kernel) (time_safe _)) nofun))))

theorem units_ok (a : AxisOpts) : treeOk a.unitsTree = true := by
  unfold AxisOpts.unitsTree
  refine treeOk_node (by decide +kernel) attrsGood_nil (ok_cons (valText_ok (by decide +kernel) ?_) ?_)
  · cases a.displayUnit <;> decide +kernel
  · split
    · exact ok_single (by decide +kernel)
    · exact ok_nil

theorem valPost_secs {a other : AxisOpts} (ha : a.Ok) (h : other.Ok) : SecsOk (a.valPost other) := by
  unfold AxisOpts.valPost
  refine secsOk_append (valCrosses_secs h) (secsOk_cons (one_ok (valText_ok (by decide +kernel) ?_) rfl)
    (secsOk_cons (ifs_ok (textVal_ok (by decide +kernel) ha.majorUnit)) (secsOk_cons (ifs_ok (textVal_ok (by decide +kernel) ha.minorUnit))
      (secsOk_cons (if_ok (units_ok a) rfl) nofun))))
  split <;> decide +kernel

/-- All sections of an axis. -/
def axisSecs (U : Unicode) (id cross : Nat) (tt : ChartTitle) (a other : AxisOpts) (numFmt : List Tree) (post : List (Str × List Tree)) :
    List (Str × List Tree) :=
  ("c:axId".toList, [axIdTree id]) :: (a.preSecs other ++ ("c:title".toList, chartTitleTrees U tt) :: (a.midSecs numFmt ++
    ("c:crossAx".toList, [.empty "c:crossAx".toList [("val".toList, showNat cross)]]) :: post))

/-- The names of the sections. -/
theorem axisSecs_names (U : Unicode) (id cross : Nat) (tt : ChartTitle) (a other : AxisOpts) (numFmt : List Tree)
    (post : List (Str × List Tree)) : (axisSecs U id cross tt a other numFmt post).map Prod.fst =
      ["c:axId".toList, "c:scaling".toList, "c:delete".toList, "c:axPos".toList, "c:majorGridlines".toList, "c:minorGridlines".toList,
       "c:title".toList, "c:numFmt".toList, "c:majorTickMark".toList, "c:minorTickMark".toList, "c:tickLblPos".toList, "c:spPr".toList,
       "c:txPr".toList, "c:crossAx".toList] ++ post.map Prod.fst := rfl

theorem axisSecs_ok {U : Unicode} {id cross : Nat} {tt : ChartTitle} {a other : AxisOpts} {numFmt : List Tree} {post : List (Str × List Tree)}
    (h : a.Ok) (ht : ∀ k ∈ chartTitleTrees U tt, treeOk k = true) (hn : ∀ x ∈ numFmt, treeOk x = true ∧ treeTag x = "c:numFmt".toList)
    (hp : SecsOk post) : SecsOk (axisSecs U id cross tt a other numFmt post) := by
  unfold axisSecs
  exact secsOk_cons (one_ok (valTree_ok (by decide) id) rfl) (secsOk_append (pre_secs h) (secsOk_cons
    (fun k hk => ⟨ht k hk, chartTitleTrees_tag tt k hk⟩) (secsOk_append (mid_secs h hn) (secsOk_cons (one_ok (valTree_ok (by decide) cross) rfl) hp))))

/-! ### Reading an axis -/

/-- What is seen of the common part of an axis. -/
structure AxisShown (a other : AxisOpts) (kind : Text) (ks : List Node) (s : AxisLook) : Prop where
  kind : s.kind = kind
  logBase : s.logBase = if a.axisType ≠ .category ∧ a.logBase ≥ 2 then some (showNat a.logBase) else none
  reversed : s.reversed = a.reverse
  max : s.max = if a.axisType ≠ .category ∧ a.max ≠ [] then some a.max else none
  min : s.min = if a.axisType ≠ .category ∧ a.min ≠ [] then some a.min else none
  hidden : s.hidden = a.hidden
  side : s.side = some (if other.reverse = true ∨ other.crossing = .max then a.side.reverse else a.side).text
  majorGrid : GridMeant a.majorGrid a.majorGridLine s.majorGrid
  minorGrid : GridMeant a.minorGrid a.minorGridLine s.minorGrid
  title : (s.title = none ∧ a.title.name = [] ∧ a.title.ref.range.hasData = false ∧ a.title.format.hasFormatting = false) ∨
    ∃ q, s.title = some q ∧ TitleShown a.title q ∧
      (a.title.name ≠ [] ∨ a.title.ref.range.hasData = true ∨ a.title.format.hasFormatting = true)
  code : a.numFormat ≠ [] → s.code = some (a.numFormat, a.linked)
  majorTick : s.majorTick = a.majorTick.map tickName
  minorTick : s.minorTick = a.minorTick.map tickName
  labels : s.labels = labelName a.labelPlace
  format : FormatMeant a.format s.format
  font : s.font = a.font.map (textSeen false)
  cross : readCross ks = some s.cross
  between : s.between = cVal "c:crossBetween".toList ks
  auto : s.auto = cOn "c:auto".toList ks
  labelAlign : s.labelAlign = cVal "c:lblAlgn".toList ks
  labelSkip : s.labelSkip = cVal "c:tickLblSkip".toList ks
  tickSkip : s.tickSkip = cVal "c:tickMarkSkip".toList ks
  majorUnit : s.majorUnit = cVal "c:majorUnit".toList ks
  minorUnit : s.minorUnit = cVal "c:minorUnit".toList ks
  majorTime : s.majorTime = cVal "c:majorTimeUnit".toList ks
  minorTime : s.minorTime = cVal "c:minorTimeUnit".toList ks
  units : optChild readUnits "c:dispUnits".toList ks = some s.units

theorem tick_map (o : Option TickType) : o.map TickType.text = o.map tickName := by
  cases o with
  | none => rfl
  | some t => exact congrArg some (tick_text t)

theorem time_map (o : Option DateUnit) : o.map DateUnit.text = o.map timeName := by
  cases o with
  | none => rfl
  | some t => exact congrArg some (time_text t)

theorem code_read (s : Str) (b : Bool) : readCode (treeParts (codeTree s b)) = some (s, b) := by
  show readCode ([("formatCode".toList, s), ("sourceLinked".toList, onOff b)], []) = _
  unfold readCode
  simp (discharger := decide) only [look_eq]
  unfold attrFlag
  simp (discharger := decide) only [look_eq, look_ne]
  cases b <;> rfl

/-- The number format of an axis. -/
structure CodeTrees (a : AxisOpts) (n : List Tree) : Prop where
  ok : ∀ x ∈ n, treeOk x = true ∧ treeTag x = "c:numFmt".toList
  some : n = [] ∨ ∃ c b, n = [codeTree c b]
  own : a.numFormat ≠ [] → n = [codeTree a.numFormat a.linked]

theorem axis_common {U : Unicode} {id cross : Nat} {tt : ChartTitle} {a other : AxisOpts} {numFmt : List Tree}
    {post : List (Str × List Tree)} (kind : Text)
    (h : a.Ok) (it : IsTitle a.title tt) (ht : ∀ k ∈ chartTitleTrees U tt, treeOk k = true) (hc : CodeTrees a numFmt)
    (hp : SecsOk post) (hn : ((axisSecs U id cross tt a other numFmt post).map Prod.fst).Nodup)
    (cr : CrossLook) (hcr : readCross (toNodes (secTrees (axisSecs U id cross tt a other numFmt post))) = some cr)
    (u : Option (Text × Bool)) (hu : optChild readUnits "c:dispUnits".toList (toNodes (secTrees (axisSecs U id cross tt a other numFmt post))) = some u) :
    ∃ s, readAxisLook kind (toNodes (secTrees (axisSecs U id cross tt a other numFmt post))) = some s ∧
      AxisShown a other kind (toNodes (secTrees (axisSecs U id cross tt a other numFmt post))) s := by
  have hs := axisSecs_ok (id := id) (cross := cross) (other := other) h ht hc.ok hp
  have hlook : ∀ t, child t (toNodes (secTrees (axisSecs U id cross tt a other numFmt post))) =
      (((axisSecs U id cross tt a other numFmt post).lookup t).bind List.head?).map treeParts := fun t => secs_child hs hn t
  have l1 : (axisSecs U id cross tt a other numFmt post).lookup "c:scaling".toList =
      some [.node "c:scaling".toList [] (secTrees a.scalingSecs)] := by
    unfold axisSecs AxisOpts.preSecs AxisOpts.midSecs; simp only [List.cons_append, List.nil_append]; sec_look
  have l2 : (axisSecs U id cross tt a other numFmt post).lookup "c:majorGridlines".toList =
      some (gridTrees "c:majorGridlines".toList a.majorGrid a.majorGridLine) := by
    unfold axisSecs AxisOpts.preSecs AxisOpts.midSecs; simp only [List.cons_append, List.nil_append]; sec_look
  have l3 : (axisSecs U id cross tt a other numFmt post).lookup "c:minorGridlines".toList =
      some (gridTrees "c:minorGridlines".toList a.minorGrid a.minorGridLine) := by
    unfold axisSecs AxisOpts.preSecs AxisOpts.midSecs; simp only [List.cons_append, List.nil_append]; sec_look
  have l4 : (axisSecs U id cross tt a other numFmt post).lookup "c:title".toList = some (chartTitleTrees U tt) := by
    unfold axisSecs AxisOpts.preSecs AxisOpts.midSecs; simp only [List.cons_append, List.nil_append]; sec_look
  have l5 : (axisSecs U id cross tt a other numFmt post).lookup "c:numFmt".toList = some numFmt := by
    unfold axisSecs AxisOpts.preSecs AxisOpts.midSecs; simp only [List.cons_append, List.nil_append]; sec_look
  have l6 : (axisSecs U id cross tt a other numFmt post).lookup "c:spPr".toList = some a.format.trees := by
    unfold axisSecs AxisOpts.preSecs AxisOpts.midSecs; simp only [List.cons_append, List.nil_append]; sec_look
  have l7 : (axisSecs U id cross tt a other numFmt post).lookup "c:txPr".toList = some (a.font.map (·.txPrTree false)).toList := by
    unfold axisSecs AxisOpts.preSecs AxisOpts.midSecs; simp only [List.cons_append, List.nil_append]; sec_look
  have l8 : (axisSecs U id cross tt a other numFmt post).lookup "c:delete".toList =
      some (if a.hidden = true then [valOne "c:delete".toList] else []) := by
    unfold axisSecs AxisOpts.preSecs AxisOpts.midSecs; simp only [List.cons_append, List.nil_append]; sec_look
  have l9 : (axisSecs U id cross tt a other numFmt post).lookup "c:majorTickMark".toList =
      some (optVal "c:majorTickMark".toList (a.majorTick.map TickType.text)) := by
    unfold axisSecs AxisOpts.preSecs AxisOpts.midSecs; simp only [List.cons_append, List.nil_append]; sec_look
  have l10 : (axisSecs U id cross tt a other numFmt post).lookup "c:minorTickMark".toList =
      some (optVal "c:minorTickMark".toList (a.minorTick.map TickType.text)) := by
    unfold axisSecs AxisOpts.preSecs AxisOpts.midSecs; simp only [List.cons_append, List.nil_append]; sec_look
  have l11 : (axisSecs U id cross tt a other numFmt post).lookup "c:tickLblPos".toList =
      some [valText "c:tickLblPos".toList a.labelPlace.text] := by
    unfold axisSecs AxisOpts.preSecs AxisOpts.midSecs; simp only [List.cons_append, List.nil_append]; sec_look
  have l12 : (axisSecs U id cross tt a other numFmt post).lookup "c:axPos".toList =
      some [axPosTree a.side other.reverse other.crossing] := by
    unfold axisSecs AxisOpts.preSecs AxisOpts.midSecs; simp only [List.cons_append, List.nil_append]; sec_look
  revert hcr hu hs hn hlook l1 l2 l3 l4 l5 l6 l7 l8 l9 l10 l11 l12
  generalize axisSecs U id cross tt a other numFmt post = secs
  intro hn hcr hu hs hlook l1 l2 l3 l4 l5 l6 l7 l8 l9 l10 l11 l12
  have v := cVal_secs hs hn
  have e1 : child "c:scaling".toList (toNodes (secTrees secs)) = some ([], toNodes (secTrees a.scalingSecs)) := by
    rw [hlook, l1]; rfl
  obtain ⟨mg, e2, g2⟩ := grid_read (on := a.majorGrid) "c:majorGridlines".toList h.majorLine
  obtain ⟨ng, e3, g3⟩ := grid_read (on := a.minorGrid) "c:minorGridlines".toList h.minorLine
  rw [← l2, ← hlook] at e2
  rw [← l3, ← hlook] at e3
  obtain ⟨q, e4, g4⟩ : ∃ q, optChild readTitleLook "c:title".toList (toNodes (secTrees secs)) = some q ∧
      ((q = none ∧ a.title.name = [] ∧ a.title.ref.range.hasData = false ∧ a.title.format.hasFormatting = false) ∨
        ∃ r, q = some r ∧ TitleShown a.title r ∧
          (a.title.name ≠ [] ∨ a.title.ref.range.hasData = true ∨ a.title.format.hasFormatting = true)) := by
    unfold optChild
    rw [hlook, l4, Option.bind_some]
    rcases title_read U it h.title h.noPara ht with ⟨e, r⟩ | ⟨e, q, he, hq, hsn, hr⟩
    · rw [e]; exact ⟨none, rfl, Or.inl ⟨rfl, r⟩⟩
    · rw [he]; dsimp only; rw [hq]; exact ⟨some q, rfl, Or.inr ⟨q, rfl, hsn, hr⟩⟩
  obtain ⟨c, e5, g5⟩ : ∃ c, optChild readCode "c:numFmt".toList (toNodes (secTrees secs)) = some c ∧
      (a.numFormat ≠ [] → c = some (a.numFormat, a.linked)) := by
    unfold optChild
    rw [hlook, l5, Option.bind_some]
    by_cases hne : a.numFormat ≠ []
    · rw [hc.own hne]
      refine ⟨some (a.numFormat, a.linked), ?_, fun _ => rfl⟩
      show (readCode (treeParts (codeTree a.numFormat a.linked))).map some = _
      rw [code_read]; rfl
    · rcases hc.some with e | ⟨c, b, e⟩
      · rw [e]; exact ⟨none, rfl, fun x => absurd x hne⟩
      · rw [e]
        refine ⟨some (c, b), ?_, fun x => absurd x hne⟩
        show (readCode (treeParts (codeTree c b))).map some = _
        rw [code_read]; rfl
  obtain ⟨f, e6, g6⟩ := cFormat_in hs hn l6 h.format
  have e7 : optChild readTextLook "c:txPr".toList (toNodes (secTrees secs)) = some (a.font.map (textSeen false)) := by
    unfold optChild
    rw [hlook, l7, Option.bind_some]
    cases ef : a.font with
    | none => rfl
    | some y =>
      show (readTextLook (treeParts (y.txPrTree false))).map some = _
      rw [txPr_read (h.font y ef)]; rfl
  have sv := cVal_secs (scaling_secs h) (scaling_nodup a)
  unfold readAxisLook
  rw [e1, e4, e5, e6, e7, hcr, hu, show optChild readGrid "c:majorGridlines".toList (toNodes (secTrees secs)) = some mg from e2,
    show optChild readGrid "c:minorGridlines".toList (toNodes (secTrees secs)) = some ng from e3]
  refine ⟨_, rfl, ?_⟩
  refine { kind := rfl, logBase := ?_, reversed := ?_, max := ?_, min := ?_, hidden := ?_, side := ?_, majorGrid := g2, minorGrid := g3, title := g4, code := g5, majorTick := ?_, minorTick := ?_, labels := ?_, format := g6, font := rfl, cross := hcr, between := rfl, auto := rfl, labelAlign := rfl, labelSkip := rfl, tickSkip := rfl, majorUnit := rfl, minorUnit := rfl, majorTime := rfl, minorTime := rfl, units := hu }
  · show cVal "c:logBase".toList (toNodes (secTrees a.scalingSecs)) = _
    rw [sv]; unfold AxisOpts.scalingSecs; sec_look; rw [ifVal_val]
  · show (cVal "c:orientation".toList (toNodes (secTrees a.scalingSecs)) == _) = _
    rw [sv]; unfold AxisOpts.scalingSecs; sec_look; rw [oneVal_val]
    cases a.reverse <;> rfl
  · show cVal "c:max".toList (toNodes (secTrees a.scalingSecs)) = _
    rw [sv]; unfold AxisOpts.scalingSecs; sec_look; rw [ifVal_val]
  · show cVal "c:min".toList (toNodes (secTrees a.scalingSecs)) = _
    rw [sv]; unfold AxisOpts.scalingSecs; sec_look; rw [ifVal_val]
  · show cOn "c:delete".toList (toNodes (secTrees secs)) = _
    unfold cOn
    rw [v, l8]
    cases a.hidden <;> rfl
  · show cVal "c:axPos".toList (toNodes (secTrees secs)) = _
    rw [v, l12]
    unfold axPosTree
    exact oneVal_val _ _
  · show cVal "c:majorTickMark".toList (toNodes (secTrees secs)) = _
    rw [v, l9, optVal_val, tick_map]
  · show cVal "c:minorTickMark".toList (toNodes (secTrees secs)) = _
    rw [v, l10, optVal_val, tick_map]
  · show (cVal "c:tickLblPos".toList (toNodes (secTrees secs))).getD _ = _
    rw [v, l11, oneVal_val, label_text]; rfl

theorem code_trees {a : AxisOpts} (h : a.Ok) {ctx : AxisCtx} (hx : attrSafe ctx.numFormat = true) (form : AxisForm) :
    CodeTrees a (a.numFmtOf ctx form) := by
  have hcat : ∀ d, attrSafe d = true → CodeTrees a (a.catNumFmt ctx d) := by
    intro d hd
    unfold AxisOpts.catNumFmt
    refine ⟨?_, ?_, fun hne => if_pos hne⟩
    · split
      · exact one_ok (code_ok h.numFormat _) rfl
      · exact if_ok (code_ok hd _) rfl
    · split
      · exact Or.inr ⟨_, _, rfl⟩
      · split
        · exact Or.inr ⟨_, _, rfl⟩
        · exact Or.inl rfl
  cases form with
  | cat => exact hcat _ (by decide +kernel)
  | date => exact hcat _ (by decide +kernel)
  | val =>
    show CodeTrees a (a.valNumFmt ctx)
    unfold AxisOpts.valNumFmt
    refine ⟨?_, ?_, fun hne => by rw [if_neg hne]⟩
    · split
      · exact one_ok (code_ok hx _) rfl
      · exact one_ok (code_ok h.numFormat _) rfl
    · split
      · exact Or.inr ⟨_, _, rfl⟩
      · exact Or.inr ⟨_, _, rfl⟩

theorem post_secs {a other : AxisOpts} (ha : a.Ok) (h : other.Ok) (ctx : AxisCtx) (form : AxisForm) :
    SecsOk (a.postOf other ctx form) := by
  cases form with
  | cat => exact catPost_secs h ctx
  | date => exact datePost_secs ha h ctx
  | val => exact valPost_secs ha h

theorem axis_nodup (U : Unicode) (id cross : Nat) (tt : ChartTitle) (a other : AxisOpts) (n : List Tree) (ctx : AxisCtx) (form : AxisForm) :
    ((axisSecs U id cross tt a other n (a.postOf other ctx form)).map Prod.fst).Nodup := by
  rw [axisSecs_names]
  cases form with
  | cat =>
    show (["c:axId".toList, "c:scaling".toList, "c:delete".toList, "c:axPos".toList, "c:majorGridlines".toList, "c:minorGridlines".toList,
       "c:title".toList, "c:numFmt".toList, "c:majorTickMark".toList, "c:minorTickMark".toList, "c:tickLblPos".toList, "c:spPr".toList,
       "c:txPr".toList, "c:crossAx".toList] ++ ["c:crosses".toList, "c:crossesAt".toList, "c:auto".toList, "c:lblAlgn".toList,
       "c:lblOffset".toList, "c:tickLblSkip".toList, "c:tickMarkSkip".toList] : List Str).Nodup
    decide +kernel
  | date =>
    show (["c:axId".toList, "c:scaling".toList, "c:delete".toList, "c:axPos".toList, "c:majorGridlines".toList, "c:minorGridlines".toList,
       "c:title".toList, "c:numFmt".toList, "c:majorTickMark".toList, "c:minorTickMark".toList, "c:tickLblPos".toList, "c:spPr".toList,
       "c:txPr".toList, "c:crossAx".toList] ++ ["c:crosses".toList, "c:crossesAt".toList, "c:auto".toList,
       "c:lblOffset".toList, "c:tickLblSkip".toList, "c:tickMarkSkip".toList, "c:majorUnit".toList, "c:majorTimeUnit".toList,
       "c:minorUnit".toList, "c:minorTimeUnit".toList] : List Str).Nodup
    decide +kernel
  | val =>
    show (["c:axId".toList, "c:scaling".toList, "c:delete".toList, "c:axPos".toList, "c:majorGridlines".toList, "c:minorGridlines".toList,
       "c:title".toList, "c:numFmt".toList, "c:majorTickMark".toList, "c:minorTickMark".toList, "c:tickLblPos".toList, "c:spPr".toList,
       "c:txPr".toList, "c:crossAx".toList] ++ ["c:crosses".toList, "c:crossesAt".toList, "c:crossBetween".toList,
       "c:majorUnit".toList, "c:minorUnit".toList, "c:dispUnits".toList] : List Str).Nodup
    decide +kernel

/-- The crossing that a category or date axis shows. -/
def catCrossSeen (a other : AxisOpts) (ctx : AxisCtx) : CrossLook :=
  if ctx.hasCrosses || !a.hidden then
    match other.crossing with
    | .category _ => .automatic
    | c => crossMeant c
  else .automatic

/-- What is seen of an axis besides the common part. -/
def FormShown (a other : AxisOpts) (ctx : AxisCtx) (s : AxisLook) : AxisForm → Prop
  | .cat => s.cross = catCrossSeen a other ctx ∧ s.auto = !a.automatic ∧ s.labelAlign = some (alignName a.labelAlign) ∧
      s.labelSkip = (if a.labelInterval > 1 then some (showNat a.labelInterval) else none) ∧
      s.tickSkip = (if a.tickInterval > 1 then some (showNat a.tickInterval) else none)
  | .date => s.cross = catCrossSeen a other ctx ∧ s.majorUnit = (if a.majorUnit ≠ [] then some a.majorUnit else none) ∧
      s.minorUnit = (if a.minorUnit ≠ [] then some a.minorUnit else none) ∧
      s.majorTime = a.majorDateUnit.map timeName ∧ s.minorTime = a.minorDateUnit.map timeName
  | .val => s.cross = crossMeant other.crossing ∧
      s.between = some (if other.between then "between".toList else "midCat".toList) ∧
      (a.axisType ≠ .category → s.majorUnit = (if a.majorUnit ≠ [] then some a.majorUnit else none) ∧
        s.minorUnit = (if a.minorUnit ≠ [] then some a.minorUnit else none)) ∧
      s.units = (if a.displayUnit ≠ .none then some (unitName a.displayUnit, a.displayUnitShown) else none)

/-- The crossing of two values. -/
def crossOf (c d : Option Str) : Option CrossLook :=
  match d with
  | some v => some (.at v)
  | none =>
    match c with
    | none => some .automatic
    | some v => if v = "autoZero".toList then some .automatic else if v = "min".toList then some .min
      else if v = "max".toList then some .max else none

theorem cross_read {secs : List (Str × List Tree)} (hs : SecsOk secs) (hn : (secs.map Prod.fst).Nodup) (c d : Option Str)
    (h1 : secs.lookup "c:crosses".toList = some (optVal "c:crosses".toList c))
    (h2 : secs.lookup "c:crossesAt".toList = some (optVal "c:crossesAt".toList d)) :
    readCross (toNodes (secTrees secs)) = crossOf c d := by
  unfold readCross
  rw [cVal_secs hs hn, cVal_secs hs hn, h1, h2, optVal_val, optVal_val]
  cases d <;> cases c <;> rfl

theorem units_read (a : AxisOpts) (h : a.displayUnit ≠ .none) :
    readUnits (treeParts a.unitsTree) = some (unitName a.displayUnit, a.displayUnitShown) := by
  unfold AxisOpts.unitsTree
  show readUnits ([], toNodes (valText "c:builtInUnit".toList a.displayUnit.text :: _)) = _
  unfold readUnits cVal
  dsimp only
  rw [child_head (t := "c:builtInUnit".toList) _ _ rfl, child_skip (valText _ _) _ (by show "c:builtInUnit".toList ≠ _; decide)]
  show Option.map _ (List.lookup "val".toList [("val".toList, a.displayUnit.text)]) = _
  rw [look_eq, unit_text h]
  cases a.displayUnitShown <;> rfl

set_option maxHeartbeats 2000000 in
theorem axis_read {U : Unicode} {tt : ChartTitle} {a other : AxisOpts} (ctx : AxisCtx) (form : AxisForm) (id cross : Nat) (kind : Text)
    (h : a.Ok) (ho : other.Ok) (it : IsTitle a.title tt) (ht : ∀ k ∈ chartTitleTrees U tt, treeOk k = true)
    (hx : attrSafe ctx.numFormat = true) :
    ∃ s, readAxisLook kind (toNodes (secTrees (axisSecs U id cross tt a other (a.numFmtOf ctx form) (a.postOf other ctx form)))) = some s ∧
      AxisShown a other kind (toNodes (secTrees (axisSecs U id cross tt a other (a.numFmtOf ctx form) (a.postOf other ctx form)))) s ∧
      FormShown a other ctx s form := by
  have hp := post_secs h ho ctx form
  have hn := axis_nodup U id cross tt a other (a.numFmtOf ctx form) ctx form
  have hc := code_trees h hx form
  have hs := axisSecs_ok (id := id) (cross := cross) (other := other) h ht hc.ok hp
  have hlook := fun t => secs_child hs hn t
  have v := cVal_secs hs hn
  cases form with
  | cat =>
    have k1 : (axisSecs U id cross tt a other (a.numFmtOf ctx .cat) (a.postOf other ctx .cat)).lookup "c:crosses".toList =
        some (optVal "c:crosses".toList (if ctx.hasCrosses || !a.hidden then
          match other.crossing with | .value _ => none | .category _ => some Crossing.automatic.text | c => some c.text else none)) := by
      show (axisSecs U id cross tt a other _ (a.catPost other ctx)).lookup _ = _
      unfold axisSecs AxisOpts.preSecs AxisOpts.midSecs AxisOpts.catPost AxisOpts.catCrosses AxisOpts.skipSecs
      simp only [List.cons_append, List.nil_append]
      sec_look
      split
      · cases other.crossing <;> rfl
      · rfl
    have k2 : (axisSecs U id cross tt a other (a.numFmtOf ctx .cat) (a.postOf other ctx .cat)).lookup "c:crossesAt".toList =
        some (optVal "c:crossesAt".toList (if ctx.hasCrosses || !a.hidden then
          match other.crossing with | .value v => some v | _ => none else none)) := by
      show (axisSecs U id cross tt a other _ (a.catPost other ctx)).lookup _ = _
      unfold axisSecs AxisOpts.preSecs AxisOpts.midSecs AxisOpts.catPost AxisOpts.catCrosses AxisOpts.skipSecs
      simp only [List.cons_append, List.nil_append]
      sec_look
      split
      · cases other.crossing <;> rfl
      · rfl
    have hcr : readCross (toNodes (secTrees (axisSecs U id cross tt a other (a.numFmtOf ctx .cat) (a.postOf other ctx .cat)))) =
        some (catCrossSeen a other ctx) := by
      rw [cross_read hs hn _ _ k1 k2]
      unfold catCrossSeen
      generalize (ctx.hasCrosses || !a.hidden) = b
      cases b <;> cases other.crossing <;> rfl
    have hu : optChild readUnits "c:dispUnits".toList (toNodes (secTrees (axisSecs U id cross tt a other (a.numFmtOf ctx .cat)
        (a.postOf other ctx .cat)))) = some none := by
      unfold optChild
      rw [show child "c:dispUnits".toList (toNodes (secTrees (axisSecs U id cross tt a other (a.numFmtOf ctx .cat)
        (a.postOf other ctx .cat)))) = none from ?_]
      refine (hlook _).trans ?_
      show ((List.lookup _ (axisSecs U id cross tt a other _ (a.catPost other ctx))).bind _).map _ = _
      unfold axisSecs AxisOpts.preSecs AxisOpts.midSecs AxisOpts.catPost AxisOpts.catCrosses AxisOpts.skipSecs
      simp only [List.cons_append, List.nil_append]
      simp (discharger := decide) only [assoc_ne]
      rfl
    obtain ⟨s, h1, h2⟩ := axis_common kind h it ht hc hp hn _ hcr _ hu
    refine ⟨s, h1, h2, ?_, ?_, ?_, ?_, ?_⟩
    · have := h2.cross
      rw [hcr] at this
      exact (Option.some.inj this).symm
    · rw [h2.auto]
      unfold cOn
      rw [v]
      show (((((List.lookup _ (axisSecs U id cross tt a other _ (a.catPost other ctx))).bind _).map _).bind _) == _) = _
      unfold axisSecs AxisOpts.preSecs AxisOpts.midSecs AxisOpts.catPost AxisOpts.catCrosses AxisOpts.skipSecs
      simp only [List.cons_append, List.nil_append]
      sec_look
      cases a.automatic <;> rfl
    · rw [h2.labelAlign, v, ← align_text]
      show ((((List.lookup _ (axisSecs U id cross tt a other _ (a.catPost other ctx))).bind _).map _).bind _) = _
      unfold axisSecs AxisOpts.preSecs AxisOpts.midSecs AxisOpts.catPost AxisOpts.catCrosses AxisOpts.skipSecs
      simp only [List.cons_append, List.nil_append]
      sec_look
      exact oneVal_val _ _
    · rw [h2.labelSkip, v]
      show ((((List.lookup _ (axisSecs U id cross tt a other _ (a.catPost other ctx))).bind _).map _).bind _) = _
      unfold axisSecs AxisOpts.preSecs AxisOpts.midSecs AxisOpts.catPost AxisOpts.catCrosses AxisOpts.skipSecs
      simp only [List.cons_append, List.nil_append]
      sec_look
      exact ifVal_val _ _ _
    · rw [h2.tickSkip, v]
      show ((((List.lookup _ (axisSecs U id cross tt a other _ (a.catPost other ctx))).bind _).map _).bind _) = _
      unfold axisSecs AxisOpts.preSecs AxisOpts.midSecs AxisOpts.catPost AxisOpts.catCrosses AxisOpts.skipSecs
      simp only [List.cons_append, List.nil_append]
      sec_look
      exact ifVal_val _ _ _
  | date =>
    have k1 : (axisSecs U id cross tt a other (a.numFmtOf ctx .date) (a.postOf other ctx .date)).lookup "c:crosses".toList =
        some (optVal "c:crosses".toList (if ctx.hasCrosses || !a.hidden then
          match other.crossing with | .value _ => none | .category _ => some Crossing.automatic.text | c => some c.text else none)) := by
      show (axisSecs U id cross tt a other _ (a.datePost other ctx)).lookup _ = _
      unfold axisSecs AxisOpts.preSecs AxisOpts.midSecs AxisOpts.datePost AxisOpts.catCrosses AxisOpts.skipSecs
      simp only [List.cons_append, List.nil_append]
      sec_look
      split
      · cases other.crossing <;> rfl
      · rfl
    have k2 : (axisSecs U id cross tt a other (a.numFmtOf ctx .date) (a.postOf other ctx .date)).lookup "c:crossesAt".toList =
        some (optVal "c:crossesAt".toList (if ctx.hasCrosses || !a.hidden then
          match other.crossing with | .value v => some v | _ => none else none)) := by
      show (axisSecs U id cross tt a other _ (a.datePost other ctx)).lookup _ = _
      unfold axisSecs AxisOpts.preSecs AxisOpts.midSecs AxisOpts.datePost AxisOpts.catCrosses AxisOpts.skipSecs
      simp only [List.cons_append, List.nil_append]
      sec_look
      split
      · cases other.crossing <;> rfl
      · rfl
    have hcr : readCross (toNodes (secTrees (axisSecs U id cross tt a other (a.numFmtOf ctx .date) (a.postOf other ctx .date)))) =
        some (catCrossSeen a other ctx) := by
      rw [cross_read hs hn _ _ k1 k2]
      unfold catCrossSeen
      generalize (ctx.hasCrosses || !a.hidden) = b
      cases b <;> cases other.crossing <;> rfl
    have hu : optChild readUnits "c:dispUnits".toList (toNodes (secTrees (axisSecs U id cross tt a other (a.numFmtOf ctx .date)
        (a.postOf other ctx .date)))) = some none := by
      unfold optChild
      rw [show child "c:dispUnits".toList (toNodes (secTrees (axisSecs U id cross tt a other (a.numFmtOf ctx .date)
        (a.postOf other ctx .date)))) = none from ?_]
      refine (hlook _).trans ?_
      show ((List.lookup _ (axisSecs U id cross tt a other _ (a.datePost other ctx))).bind _).map _ = _
      unfold axisSecs AxisOpts.preSecs AxisOpts.midSecs AxisOpts.datePost AxisOpts.catCrosses AxisOpts.skipSecs
      simp only [List.cons_append, List.nil_append]
      simp (discharger := decide) only [assoc_ne]
      rfl
    obtain ⟨s, h1, h2⟩ := axis_common kind h it ht hc hp hn _ hcr _ hu
    refine ⟨s, h1, h2, ?_, ?_, ?_, ?_, ?_⟩
    · have := h2.cross
      rw [hcr] at this
      exact (Option.some.inj this).symm
    · rw [h2.majorUnit, v]
      show ((((List.lookup _ (axisSecs U id cross tt a other _ (a.datePost other ctx))).bind _).map _).bind _) = _
      unfold axisSecs AxisOpts.preSecs AxisOpts.midSecs AxisOpts.datePost AxisOpts.catCrosses AxisOpts.skipSecs
      simp only [List.cons_append, List.nil_append]
      sec_look
      exact textVal_val _ _
    · rw [h2.minorUnit, v]
      show ((((List.lookup _ (axisSecs U id cross tt a other _ (a.datePost other ctx))).bind _).map _).bind _) = _
      unfold axisSecs AxisOpts.preSecs AxisOpts.midSecs AxisOpts.datePost AxisOpts.catCrosses AxisOpts.skipSecs
      simp only [List.cons_append, List.nil_append]
      sec_look
      exact textVal_val _ _
    · rw [h2.majorTime, v, ← time_map]
      show ((((List.lookup _ (axisSecs U id cross tt a other _ (a.datePost other ctx))).bind _).map _).bind _) = _
      unfold axisSecs AxisOpts.preSecs AxisOpts.midSecs AxisOpts.datePost AxisOpts.catCrosses AxisOpts.skipSecs
      simp only [List.cons_append, List.nil_append]
      sec_look
      exact optVal_val _ _
    · rw [h2.minorTime, v, ← time_map]
      show ((((List.lookup _ (axisSecs U id cross tt a other _ (a.datePost other ctx))).bind _).map _).bind _) = _
      unfold axisSecs AxisOpts.preSecs AxisOpts.midSecs AxisOpts.datePost AxisOpts.catCrosses AxisOpts.skipSecs
      simp only [List.cons_append, List.nil_append]
      sec_look
      exact optVal_val _ _
  | val =>
    have k1 : (axisSecs U id cross tt a other (a.numFmtOf ctx .val) (a.postOf other ctx .val)).lookup "c:crosses".toList =
        some (optVal "c:crosses".toList (match other.crossing with | .value _ => none | .category _ => none | c => some c.text)) := by
      show (axisSecs U id cross tt a other _ (a.valPost other)).lookup _ = _
      unfold axisSecs AxisOpts.preSecs AxisOpts.midSecs AxisOpts.valPost valCrosses
      simp only [List.cons_append, List.nil_append]
      sec_look
      cases other.crossing <;> rfl
    have k2 : (axisSecs U id cross tt a other (a.numFmtOf ctx .val) (a.postOf other ctx .val)).lookup "c:crossesAt".toList =
        some (optVal "c:crossesAt".toList (match other.crossing with | .value v => some v | .category n => some (showNat n) | _ => none)) := by
      show (axisSecs U id cross tt a other _ (a.valPost other)).lookup _ = _
      unfold axisSecs AxisOpts.preSecs AxisOpts.midSecs AxisOpts.valPost valCrosses
      simp only [List.cons_append, List.nil_append]
      sec_look
      cases other.crossing <;> rfl
    have hcr : readCross (toNodes (secTrees (axisSecs U id cross tt a other (a.numFmtOf ctx .val) (a.postOf other ctx .val)))) =
        some (crossMeant other.crossing) := by
      rw [cross_read hs hn _ _ k1 k2]
      cases other.crossing <;> rfl
    have hu : optChild readUnits "c:dispUnits".toList (toNodes (secTrees (axisSecs U id cross tt a other (a.numFmtOf ctx .val)
        (a.postOf other ctx .val)))) =
        some (if a.displayUnit ≠ .none then some (unitName a.displayUnit, a.displayUnitShown) else none) := by
      unfold optChild
      rw [show child "c:dispUnits".toList (toNodes (secTrees (axisSecs U id cross tt a other (a.numFmtOf ctx .val)
        (a.postOf other ctx .val)))) = if a.displayUnit ≠ .none then some (treeParts a.unitsTree) else none from ?_]
      · by_cases hd : a.displayUnit ≠ .none
        · rw [if_pos hd, if_pos hd]
          dsimp only
          rw [units_read a hd]; rfl
        · rw [if_neg hd, if_neg hd]
      · refine (hlook _).trans ?_
        show ((List.lookup _ (axisSecs U id cross tt a other _ (a.valPost other))).bind _).map _ = _
        unfold axisSecs AxisOpts.preSecs AxisOpts.midSecs AxisOpts.valPost valCrosses
        simp only [List.cons_append, List.nil_append]
        sec_look
        split <;> rfl
    obtain ⟨s, h1, h2⟩ := axis_common kind h it ht hc hp hn _ hcr _ hu
    refine ⟨s, h1, h2, ?_, ?_, fun hcat => ⟨?_, ?_⟩, ?_⟩
    · have := h2.cross
      rw [hcr] at this
      exact (Option.some.inj this).symm
    · rw [h2.between, v]
      show ((((List.lookup _ (axisSecs U id cross tt a other _ (a.valPost other))).bind _).map _).bind _) = _
      unfold axisSecs AxisOpts.preSecs AxisOpts.midSecs AxisOpts.valPost valCrosses
      simp only [List.cons_append, List.nil_append]
      sec_look
      exact oneVal_val _ _
    · rw [h2.majorUnit, v]
      show ((((List.lookup _ (axisSecs U id cross tt a other _ (a.valPost other))).bind _).map _).bind _) = _
      unfold axisSecs AxisOpts.preSecs AxisOpts.midSecs AxisOpts.valPost valCrosses
      simp only [List.cons_append, List.nil_append]
      sec_look
      rw [if_pos hcat]
      exact textVal_val _ _
    · rw [h2.minorUnit, v]
      show ((((List.lookup _ (axisSecs U id cross tt a other _ (a.valPost other))).bind _).map _).bind _) = _
      unfold axisSecs AxisOpts.preSecs AxisOpts.midSecs AxisOpts.valPost valCrosses
      simp only [List.cons_append, List.nil_append]
      sec_look
      rw [if_pos hcat]
      exact textVal_val _ _
    · have := h2.units
      rw [hu] at this
      exact (Option.some.inj this).symm

end Verif
