import Verif.Props.ChartPart
/-!
C34 and C54: the whole chart part.
-/
set_option linter.unusedSectionVars false
namespace Verif
open Spec BMap
variable {Fmt : Type} [DecidableEq Fmt] {cfg : Cfg} {dflt : Fmt}
variable {U : Unicode} {parses : Str → Bool} {shown : Text → Nat → Nat → Content}

/-! ### Chart groups -/

theorem zipIdx_shift {α : Type} (l : List α) (i : Nat) : l.zipIdx i = l.zipIdx.map fun p => (p.1, i + p.2) := by
  have : ∀ j, l.zipIdx (i + j) = (l.zipIdx j).map fun p => (p.1, i + p.2) := by
    induction l with
    | nil => intro j; rfl
    | cons a l ih =>
      intro j
      rw [List.zipIdx_cons, List.zipIdx_cons, List.map_cons, ← ih (j + 1)]
      rfl
  exact this 0

theorem seriesTrees_eq (g : ChartGroup) (ss : List ChartSeries) (i : Nat) :
    seriesTrees U parses g i ss = (ss.zipIdx i).map fun p => seriesTree U parses g p.2 p.1 := by
  induction ss generalizing i with
  | nil => rfl
  | cons s ss ih => rw [seriesTrees, ih, List.zipIdx_cons, List.map_cons]

theorem seriesTrees_tag (g : ChartGroup) (ss : List ChartSeries) (i : Nat) :
    ∀ x ∈ seriesTrees U parses g i ss, treeTag x = "c:ser".toList := by
  rw [seriesTrees_eq]
  intro x hx
  obtain ⟨p, _, rfl⟩ := List.mem_map.mp hx
  rfl

theorem seriesTrees_read (hU : U.Sane) {g : ChartGroup} {ss : List ChartSeries}
    (h : ∀ s ∈ ss, SeriesGood U parses shown g s ∧ SeriesFilled shown s) (i : Nat) :
    ((seriesTrees U parses g i ss).map treeParts).mapM (readSeries (decide (g = .scatter))) =
      some (seriesListMeant shown g i ss) := by
  rw [seriesTrees_eq, List.map_map, mapM_map]
  unfold seriesListMeant
  rw [zipIdx_shift, mapM_map]
  refine mapM_some_of_forall fun p hp => ?_
  have hm : p.1 ∈ ss := List.fst_mem_of_mem_zipIdx hp
  exact readSeries_eq hU (h _ hm).1 (h _ hm).2 (i + p.2)

/-- The conditions on the elements of a chart group and its series. -/
structure GroupGood (U : Unicode) (parses : Str → Bool) (shown : Text → Nat → Nat → Content) (b : ChartBody) : Prop where
  head : Free ["c:ser".toList, "c:axId".toList] b.head
  tail : Free ["c:ser".toList, "c:axId".toList] b.tail
  tail2 : Free ["c:ser".toList, "c:axId".toList] b.tail2
  series : ∀ s ∈ b.series, SeriesGood U parses shown b.group s

theorem GroupGood.second {b : ChartBody} (h : GroupGood U parses shown b) : GroupGood U parses shown b.second :=
  ⟨h.head, h.tail2, h.tail2, h.series⟩

theorem tag_eq (g : ChartGroup) : g.tag = groupElement g := by cases g <;> rfl

theorem tag_scatter (g : ChartGroup) : isScatter g.tag = decide (g = .scatter) := by cases g <;> rfl

theorem axisFree_iff (g : ChartGroup) : g.axisFree = true ↔ g = .pie ∨ g = .doughnut := by
  cases g <;> decide

theorem readAxIds (ids : List Nat) :
    ((ids.map axIdTree).map treeParts).mapM (fun c => attrNat "val".toList c.1) = some ids := by
  rw [List.map_map, mapM_map]
  have := mapM_some_of_forall (f := fun i => attrNat "val".toList ((treeParts ∘ axIdTree) i).1) (g := fun i => i) (l := ids)
    fun i _ => attrNat_one i _ _
  rwa [List.map_id'] at this

theorem readGroup_eq (hU : U.Sane) {b : ChartBody} (hb : GroupGood U parses shown b) (ids : Nat × Nat) (i : Nat)
    {ss : List ChartSeries} (h : ∀ s ∈ ss, SeriesGood U parses shown b.group s ∧ SeriesFilled shown s) :
    ((groupTrees U parses ids b i ss).map fun x => (treeTag x, treeParts x)).mapM readGroup =
      some (groupMeant shown b.group ids i ss) := by
  unfold groupTrees groupMeant
  by_cases he : ss = []
  · rw [he, if_pos List.isEmpty_nil, if_pos rfl]; rfl
  · have he' : ¬ ss.isEmpty = true := by simpa using he
    rw [if_neg he', if_neg he, List.map_cons, List.map_nil, List.mapM_cons]
    have : readGroup (treeTag (.node b.group.tag []
        (b.head ++ seriesTrees U parses b.group i ss ++ b.tail ++
          (if b.group.axisFree = true then [] else [axIdTree ids.1, axIdTree ids.2]))),
        treeParts (.node b.group.tag [] (b.head ++ seriesTrees U parses b.group i ss ++ b.tail ++
          (if b.group.axisFree = true then [] else [axIdTree ids.1, axIdTree ids.2])))) =
        some ⟨groupElement b.group, seriesListMeant shown b.group i ss,
          if b.group = .pie ∨ b.group = .doughnut then [] else [ids.1, ids.2]⟩ := by
      unfold readGroup
      simp only [treeParts, treeTag]
      have hids : (if b.group.axisFree = true then [] else [axIdTree ids.1, axIdTree ids.2]) =
          (if b.group = .pie ∨ b.group = .doughnut then [] else [ids.1, ids.2]).map axIdTree := by
        by_cases hg : b.group = .pie ∨ b.group = .doughnut
        · rw [if_pos ((axisFree_iff _).mpr hg), if_pos hg]; rfl
        · rw [if_neg (fun e => hg ((axisFree_iff _).mp e)), if_neg hg]; rfl
      rw [hids]
      generalize (if b.group = .pie ∨ b.group = .doughnut then [] else [ids.1, ids.2]) = as
      have ht : ∀ x ∈ as.map axIdTree, treeTag x = "c:axId".toList := by
        intro x hx
        obtain ⟨a, _, rfl⟩ := List.mem_map.mp hx
        rfl
      rw [elems_trees, elems_trees]
      simp only [List.filter_append]
      rw [(hb.head.noTag (k := "c:ser".toList) (by decide)).filter, (hb.tail.noTag (k := "c:ser".toList) (by decide)).filter,
        filter_tag (seriesTrees_tag _ _ _), (NoTag.all ht (k := "c:ser".toList) (by decide)).filter,
        (hb.head.noTag (k := "c:axId".toList) (by decide)).filter, (hb.tail.noTag (k := "c:axId".toList) (by decide)).filter,
        (NoTag.all (seriesTrees_tag _ _ _) (k := "c:axId".toList) (by decide)).filter, filter_tag ht]
      simp only [List.nil_append, List.append_nil]
      rw [tag_scatter, seriesTrees_read hU h, readAxIds, tag_eq]
    rw [this]
    rfl

theorem mapM_append {α β : Type} {f : α → Option β} {l l' : List α} {m m' : List β} (h : l.mapM f = some m)
    (h' : l'.mapM f = some m') : (l ++ l').mapM f = some (m ++ m') := by
  induction l generalizing m with
  | nil => cases h; exact h'
  | cons a l ih =>
    rw [List.mapM_cons] at h
    rw [List.cons_append, List.mapM_cons]
    cases ha : f a with
    | none => rw [ha] at h; cases h
    | some b =>
      rw [ha] at h
      cases hl : l.mapM f with
      | none => rw [hl] at h; cases h
      | some c =>
        rw [hl] at h
        cases h
        rw [ih hl]
        rfl

theorem chartType_read (hU : U.Sane) {b : ChartBody} (hb : GroupGood U parses shown b)
    (hf : ∀ s ∈ b.series, SeriesFilled shown s) (ids ids2 : Nat × Nat) (i : Nat) :
    ((chartTypeTrees U parses ids ids2 b i).map fun x => (treeTag x, treeParts x)).mapM readGroup =
      some (groupsMeant shown ids ids2 i b) := by
  unfold chartTypeTrees groupsMeant
  have e1 : getSeries b true = b.series.filter fun s => !s.secondary := by
    unfold getSeries; congr; funext s; cases s.secondary <;> rfl
  have e2 : getSeries b false = b.series.filter fun s => s.secondary := by
    unfold getSeries; congr; funext s; cases s.secondary <;> rfl
  rw [e1, e2, List.map_append]
  refine mapM_append (readGroup_eq hU hb ids i fun s hs => ?_) (readGroup_eq hU hb.second ids2 _ fun s hs => ?_)
  · exact ⟨hb.series s ((List.mem_filter.mp hs).1), hf s ((List.mem_filter.mp hs).1)⟩
  · exact ⟨hb.series s ((List.mem_filter.mp hs).1), hf s ((List.mem_filter.mp hs).1)⟩

theorem chartType_tag (b : ChartBody) (ids ids2 : Nat × Nat) (i : Nat) :
    ∀ x ∈ chartTypeTrees U parses ids ids2 b i, treeTag x ∈ groupTags := by
  have : ∀ b ids i ss, ∀ x ∈ groupTrees U parses ids b i ss, treeTag x ∈ groupTags := by
    intro b ids i ss x hx
    unfold groupTrees at hx
    split at hx
    · simp at hx
    · rw [List.mem_singleton] at hx
      subst hx
      show b.group.tag ∈ groupTags
      cases b.group <;> decide
  intro x hx
  rcases List.mem_append.mp hx with hx | hx
  · exact this _ _ _ _ x hx
  · exact this _ _ _ _ x hx

/-! ### Titles and axes -/

/-- The conditions on the title of a chart or an axis. -/
structure TitleGood (U : Unicode) (parses : Str → Bool) (shown : Text → Nat → Nat → Content) (t : ChartTitle) : Prop where
  ref : t.name = [] → t.ref.range.sheet ≠ [] → RefGood U parses shown .name t.ref.range
  rich : ∀ x ∈ t.rich, treeOk x = true
  rest : Free ["c:tx".toList] t.rest
  only : ∀ ts ∈ t.only, Free ["c:tx".toList] ts

theorem chartTitleTrees_tag (t : ChartTitle) : ∀ x ∈ chartTitleTrees U t, treeTag x = "c:title".toList := by
  unfold chartTitleTrees
  split
  · simp [treeTag]
  · split
    · simp [treeTag]
    · split <;> simp [treeTag]

theorem readTitleRef_skip {ts : List Tree} (h : NoTag "c:title".toList ts) (r : List Tree) :
    readTitleRef (toNodes (ts ++ r)) = readTitleRef (toNodes r) := by
  unfold readTitleRef
  rw [h.child]

theorem readTitleRef_none {ts : List Tree} (h : NoTag "c:title".toList ts) : readTitleRef (toNodes ts) = some none := by
  unfold readTitleRef
  rw [h.child_none]

theorem readTitleRef_eq (hU : U.Sane) {t : ChartTitle} (h : TitleGood U parses shown t)
    (hf : t.name = [] → t.ref.range.sheet ≠ [] → Filled shown t.ref) (rest : List Tree) (hr : NoTag "c:title".toList rest) :
    readTitleRef (toNodes (chartTitleTrees U t ++ rest)) = some (titleMeant shown t) := by
  unfold chartTitleTrees titleMeant
  simp only [hasData_iff, notEmpty_iff]
  by_cases hn : t.name = []
  · rw [if_neg (show ¬ t.name ≠ [] from fun h => h hn)]
    by_cases hs : t.ref.range.sheet = []
    · rw [if_neg (show ¬ t.ref.range.sheet ≠ [] from fun h => h hs), if_neg (fun h => h.2 hs)]
      cases ho : t.only with
      | none => dsimp only; rw [List.nil_append, readTitleRef_none hr]
      | some ts =>
        dsimp only
        unfold readTitleRef
        rw [List.cons_append, child_head _ _ (by rfl)]
        simp only [treeParts]
        rw [((h.only ts ho).noTag (k := "c:tx".toList) (by decide)).child_none]
    · rw [if_pos hs, if_pos ⟨hn, hs⟩]
      unfold readTitleRef
      rw [List.cons_append, child_head _ _ (by rfl)]
      simp only [treeParts]
      rw [child_head _ _ (by rfl)]
      unfold txFormulaTree
      simp only [treeParts]
      rw [child_head _ _ (by rfl)]
      dsimp only
      rw [readRef_str hU (h.ref hn hs) (hf hn hs) rfl]
      rfl
  · rw [if_pos hn, if_neg (fun h => hn h.1)]
    unfold readTitleRef
    rw [List.cons_append, child_head _ _ (by rfl)]
    simp only [treeParts]
    rw [child_head _ _ (by rfl)]
    simp only [treeParts]
    rw [child_skip _ _ (by tagne), child_nil]

/-- The conditions on an axis. -/
structure AxisGood (U : Unicode) (parses : Str → Bool) (shown : Text → Nat → Nat → Content) (a : ChartAxis) : Prop where
  title : TitleGood U parses shown a.title
  pre : Free ["c:axId".toList, "c:title".toList, "c:crossAx".toList] a.pre
  mid : Free ["c:axId".toList, "c:title".toList, "c:crossAx".toList] a.mid
  post : Free ["c:axId".toList, "c:title".toList, "c:crossAx".toList] a.post

theorem readAxis_eq (hU : U.Sane) {a : ChartAxis} (h : AxisGood U parses shown a)
    (hf : a.title.name = [] → a.title.ref.range.sheet ≠ [] → Filled shown a.title.ref) (tag : Str) (id cross : Nat) :
    readAxis (tag, treeParts (axisTree U tag id cross a)) = some ⟨tag, id, cross, titleMeant shown a.title⟩ := by
  unfold readAxis axisTree
  simp only [treeParts]
  rw [child_head _ _ (by rfl), Option.bind_some]
  rw [show attrNat "val".toList (treeParts (axIdTree id)).1 = some id from attrNat_one id _ _]
  have ht : NoTag "c:crossAx".toList (axIdTree id :: (a.pre ++ chartTitleTrees U a.title ++ a.mid)) :=
    NoTag.cons (by dsimp only [axIdTree, treeTag]; decide) (((h.pre.noTag (by decide)).append
      (NoTag.all (chartTitleTrees_tag _) (by decide))).append (h.mid.noTag (by decide)))
  have e : axIdTree id :: (a.pre ++ chartTitleTrees U a.title ++ a.mid ++
      .empty "c:crossAx".toList [("val".toList, showNat cross)] :: a.post) =
      (axIdTree id :: (a.pre ++ chartTitleTrees U a.title ++ a.mid)) ++
      .empty "c:crossAx".toList [("val".toList, showNat cross)] :: a.post := by simp
  rw [e, ht.child, child_head _ _ (by rfl), Option.bind_some]
  simp only [treeParts]
  rw [attrNat_one]
  have e2 : (axIdTree id :: (a.pre ++ chartTitleTrees U a.title ++ a.mid)) ++
      .empty "c:crossAx".toList [("val".toList, showNat cross)] :: a.post =
      (axIdTree id :: a.pre) ++ (chartTitleTrees U a.title ++ (a.mid ++
      .empty "c:crossAx".toList [("val".toList, showNat cross)] :: a.post)) := by simp
  rw [e2, readTitleRef_skip (NoTag.cons (by dsimp only [axIdTree, treeTag]; decide) (h.pre.noTag (by decide))),
    readTitleRef_eq hU h.title hf _ ((h.mid.noTag (by decide)).append (NoTag.cons (by tagne) (h.post.noTag (by decide))))]

/-- The form of the two axes. -/
def axisPair (U : Unicode) (g : ChartGroup) (isDate : Bool) (ids : Nat × Nat) (x y : ChartAxis) : Tree × Tree :=
  (axisTree U (catAxisTag g isDate) ids.1 ids.2 (if g = .bar then y else x),
   axisTree U "c:valAx".toList ids.2 ids.1 (if g = .bar then x else y))

theorem primaryAxes_eq (b : ChartBody) (ids : Nat × Nat) :
    primaryAxes U b ids =
      if b.group = .pie ∨ b.group = .doughnut then []
      else [(axisPair U b.group b.xAxis.isDate ids b.xAxis b.yAxis).1, (axisPair U b.group b.xAxis.isDate ids b.xAxis b.yAxis).2] := by
  unfold primaryAxes axisPair
  cases b.group <;> cases b.xAxis.isDate <;> rfl

theorem secondaryAxes_eq (c : Chart) :
    secondaryAxes U c =
      let p := axisPair U (secondGroup c) c.body.xAxis.isDate c.axis2Ids c.body.x2Axis c.body.y2Axis
      if secondUsed c = true then
        if secondGroup c = .pie ∨ secondGroup c = .doughnut then []
        else if secondGroup c = .scatter ∧ c.combined.isNone = true then [p.1, p.2] else [p.2, p.1]
      else [] := by
  obtain ⟨b, k, ids, ids2⟩ := c
  have h2 : ∀ c : Chart, c.hasSecondary = secondUsed c := by
    intro c
    unfold Chart.hasSecondary secondUsed
    rw [Bool.or_comm]
    cases c.combined <;> rfl
  unfold secondaryAxes axisPair secondGroup
  rw [h2]
  dsimp only
  cases k with
  | none =>
    simp only [Option.map_none, Option.getD_none, Option.isSome_none, Bool.false_eq_true, if_false]
    split
    · generalize b.group = g
      cases g <;> cases b.xAxis.isDate <;> rfl
    · rfl
  | some k =>
    obtain ⟨g, kt⟩ := k
    simp only [Option.map_some, Option.getD_some, Option.isSome_some, if_true]
    split
    · cases g <;> cases b.xAxis.isDate <;> rfl
    · rfl

/-- The conditions on the title of an axis and its cache. -/
def AxisReady (U : Unicode) (parses : Str → Bool) (shown : Text → Nat → Nat → Content) (a : ChartAxis) : Prop :=
  AxisGood U parses shown a ∧ (a.title.name = [] → a.title.ref.range.sheet ≠ [] → Filled shown a.title.ref)

theorem axisPair_read (hU : U.Sane) {g : ChartGroup} {isDate : Bool} {ids : Nat × Nat} {x y : ChartAxis}
    (hx : AxisReady U parses shown x) (hy : AxisReady U parses shown y) :
    let p := axisPair U g isDate ids x y
    let m := axisPairMeant shown (catAxisTag g isDate) ids (if g = .bar then y.title else x.title)
      (if g = .bar then x.title else y.title)
    readAxis (treeTag p.1, treeParts p.1) = some m.1 ∧ readAxis (treeTag p.2, treeParts p.2) = some m.2 := by
  dsimp only [axisPair, axisPairMeant]
  have t1 : ∀ t i j a, treeTag (axisTree U t i j a) = t := fun _ _ _ _ => rfl
  rw [t1, t1]
  split
  · exact ⟨readAxis_eq hU hy.1 hy.2 _ _ _, readAxis_eq hU hx.1 hx.2 _ _ _⟩
  · exact ⟨readAxis_eq hU hx.1 hx.2 _ _ _, readAxis_eq hU hy.1 hy.2 _ _ _⟩

theorem mapM_two {α β : Type} {f : α → Option β} {a b : α} {x y : β} (ha : f a = some x) (hb : f b = some y) :
    [a, b].mapM f = some [x, y] := by
  rw [List.mapM_cons, List.mapM_cons, ha, hb]; rfl

theorem primaryAxes_read (hU : U.Sane) {c : Chart} (hx : AxisReady U parses shown c.body.xAxis)
    (hy : AxisReady U parses shown c.body.yAxis) :
    ((primaryAxes U c.body c.axisIds).map fun x => (treeTag x, treeParts x)).mapM readAxis =
      some (primaryAxesMeant shown c) := by
  rw [primaryAxes_eq]
  unfold primaryAxesMeant
  dsimp only
  by_cases hg : c.body.group = .pie ∨ c.body.group = .doughnut
  · rw [if_pos hg, if_pos hg]; rfl
  · rw [if_neg hg, if_neg hg]
    have := axisPair_read hU (g := c.body.group) (isDate := c.body.xAxis.isDate) (ids := c.axisIds) hx hy
    exact mapM_two this.1 this.2

theorem secondaryAxes_read (hU : U.Sane) {c : Chart} (hx : AxisReady U parses shown c.body.x2Axis)
    (hy : AxisReady U parses shown c.body.y2Axis) :
    ((secondaryAxes U c).map fun x => (treeTag x, treeParts x)).mapM readAxis =
      some (secondaryAxesMeant shown c) := by
  rw [secondaryAxes_eq]
  unfold secondaryAxesMeant
  dsimp only
  generalize secondGroup c = g
  by_cases hs : secondUsed c = true
  · rw [if_pos hs]
    by_cases hg : g = .pie ∨ g = .doughnut
    · rw [if_pos hg, if_pos (by rcases hg with h | h <;> simp [h])]; rfl
    · rw [if_neg hg, if_neg (show ¬ (g = .pie ∨ g = .doughnut ∨ secondUsed c = false) by grind)]
      have := axisPair_read hU (g := g) (isDate := c.body.xAxis.isDate) (ids := c.axis2Ids) hx hy
      simp only [Option.isNone_iff_eq_none]
      by_cases hsc : g = .scatter ∧ c.combined = none
      · rw [if_pos hsc, if_pos hsc]
        exact mapM_two this.1 this.2
      · rw [if_neg hsc, if_neg hsc]
        exact mapM_two this.2 this.1
  · rw [if_neg hs, if_pos (.inr (.inr (Bool.not_eq_true _ |>.mp hs)))]
    rfl

theorem axes_tag (c : Chart) : ∀ x ∈ primaryAxes U c.body c.axisIds ++ secondaryAxes U c, treeTag x ∈ axisTags := by
  have hp : ∀ g d ids x y, treeTag (axisPair U g d ids x y).1 ∈ axisTags ∧ treeTag (axisPair U g d ids x y).2 ∈ axisTags := by
    intro g d ids x y
    refine ⟨?_, by show "c:valAx".toList ∈ axisTags; decide⟩
    show catAxisTag g d ∈ axisTags
    cases g <;> cases d <;> decide
  intro x hx
  rcases List.mem_append.mp hx with hx | hx
  · rw [primaryAxes_eq] at hx
    split at hx
    · simp at hx
    · simp only [List.mem_cons, List.not_mem_nil, or_false] at hx
      rcases hx with rfl | rfl
      · exact (hp _ _ _ _ _).1
      · exact (hp _ _ _ _ _).2
  · rw [secondaryAxes_eq] at hx
    dsimp only at hx
    split at hx
    · split at hx
      · simp at hx
      · split at hx
        · simp only [List.mem_cons, List.not_mem_nil, or_false] at hx
          rcases hx with rfl | rfl
          · exact (hp _ _ _ _ _).1
          · exact (hp _ _ _ _ _).2
        · simp only [List.mem_cons, List.not_mem_nil, or_false] at hx
          rcases hx with rfl | rfl
          · exact (hp _ _ _ _ _).2
          · exact (hp _ _ _ _ _).1
    · simp at hx

/-! ### The part -/

/-- The conditions on a chart. The titles of the secondary axes do not refer to cells (see
`C34_secondary_title_counterexample`); the other parameters are elements that can be written and are not among the
elements that refer to cells. -/
structure ChartGood (U : Unicode) (parses : Str → Bool) (shown : Text → Nat → Nat → Content) (c : Chart) : Prop where
  body : GroupGood U parses shown c.body
  combined : ∀ b ∈ c.combined, GroupGood U parses shown b
  title : TitleGood U parses shown c.body.title
  xAxis : AxisGood U parses shown c.body.xAxis
  yAxis : AxisGood U parses shown c.body.yAxis
  x2Axis : AxisGood U parses shown c.body.x2Axis
  y2Axis : AxisGood U parses shown c.body.y2Axis
  x2Title : c.body.x2Axis.title.name ≠ [] ∨ c.body.x2Axis.title.ref.range.sheet = []
  y2Title : c.body.y2Axis.title.name ≠ [] ∨ c.body.y2Axis.title.ref.range.sheet = []
  spacePre : Free ["c:chart".toList] c.spacePre
  spacePost : Free [] c.spacePost
  layout : Free (groupTags ++ axisTags) c.layout
  areaTail : Free (groupTags ++ axisTags) c.areaTail
  chartTail : Free ["c:title".toList] c.chartTail

/-- The caches of a chart are filled. -/
structure ChartFilled (shown : Text → Nat → Nat → Content) (c : Chart) : Prop where
  series : ∀ s ∈ c.body.series, SeriesFilled shown s
  combined : ∀ b ∈ c.combined, ∀ s ∈ b.series, SeriesFilled shown s
  title : c.body.title.name = [] → c.body.title.ref.range.sheet ≠ [] → Filled shown c.body.title.ref
  xAxis : c.body.xAxis.title.name = [] → c.body.xAxis.title.ref.range.sheet ≠ [] → Filled shown c.body.xAxis.title.ref
  yAxis : c.body.yAxis.title.name = [] → c.body.yAxis.title.ref.range.sheet ≠ [] → Filled shown c.body.yAxis.title.ref

theorem filterIn_all {tags : List Text} {ts : List Tree} (h : ∀ x ∈ ts, treeTag x ∈ tags) :
    ts.filter (fun x => decide (treeTag x ∈ tags)) = ts := by
  rw [List.filter_eq_self]
  intro x hx
  exact decide_eq_true (h x hx)

theorem filterIn_none {tags tags' : List Text} {ts : List Tree} (h : ∀ x ∈ ts, treeTag x ∈ tags')
    (hd : ∀ t ∈ tags', t ∉ tags) : ts.filter (fun x => decide (treeTag x ∈ tags)) = [] := by
  rw [List.filter_eq_nil_iff]
  intro x hx he
  exact hd _ (h x hx) (of_decide_eq_true he)

/-- The elements of the combined chart. -/
def combinedTrees (U : Unicode) (parses : Str → Bool) (c : Chart) : List Tree :=
  match c.combined with
  | some b => chartTypeTrees U parses c.axisIds c.axis2Ids b c.body.series.length
  | none => []

theorem combined_read (hU : U.Sane) {c : Chart} (h : ChartGood U parses shown c) (hf : ChartFilled shown c) :
    ((combinedTrees U parses c).map fun x => (treeTag x, treeParts x)).mapM readGroup =
      some (match c.combined with
        | some b => groupsMeant shown c.axisIds c.axis2Ids c.body.series.length b
        | none => []) := by
  unfold combinedTrees
  cases hc : c.combined with
  | none => rfl
  | some b => exact chartType_read hU (h.combined b hc) (hf.combined b hc) _ _ _

theorem combined_tag (c : Chart) : ∀ x ∈ combinedTrees U parses c, treeTag x ∈ groupTags := by
  unfold combinedTrees
  cases c.combined with
  | none => simp
  | some b => exact chartType_tag b _ _ _

theorem plotArea_groups (hU : U.Sane) {c : Chart} (h : ChartGood U parses shown c) (hf : ChartFilled shown c) :
    (elemsIn groupTags (treeParts (plotAreaTree U parses c)).2).mapM readGroup = some (allGroupsMeant shown c) := by
  unfold plotAreaTree
  simp only [treeParts]
  rw [elemsIn_trees]
  change ((List.filter _ (c.layout ++ chartTypeTrees U parses c.axisIds c.axis2Ids c.body 0 ++ combinedTrees U parses c ++
    primaryAxes U c.body c.axisIds ++ secondaryAxes U c ++ c.areaTail)).map _).mapM _ = _
  have ha := axes_tag (U := U) c
  simp only [List.filter_append]
  rw [h.layout.filterIn (by simp +contextual), h.areaTail.filterIn (by simp +contextual),
    filterIn_all (chartType_tag _ _ _ _), filterIn_all (combined_tag c),
    filterIn_none (tags' := axisTags) (fun x hx => ha x (List.mem_append_left _ hx)) (by decide),
    filterIn_none (tags' := axisTags) (fun x hx => ha x (List.mem_append_right _ hx)) (by decide)]
  simp only [List.nil_append, List.append_nil, List.map_append]
  exact mapM_append (chartType_read hU h.body hf.series _ _ _) (combined_read hU h hf)

theorem plotArea_axes (hU : U.Sane) {c : Chart} (h : ChartGood U parses shown c) (hf : ChartFilled shown c) :
    (elemsIn axisTags (treeParts (plotAreaTree U parses c)).2).mapM readAxis =
      some (primaryAxesMeant shown c ++ secondaryAxesMeant shown c) := by
  unfold plotAreaTree
  simp only [treeParts]
  rw [elemsIn_trees]
  change ((List.filter _ (c.layout ++ chartTypeTrees U parses c.axisIds c.axis2Ids c.body 0 ++ combinedTrees U parses c ++
    primaryAxes U c.body c.axisIds ++ secondaryAxes U c ++ c.areaTail)).map _).mapM _ = _
  have ha := axes_tag (U := U) c
  simp only [List.filter_append]
  rw [h.layout.filterIn (by simp +contextual), h.areaTail.filterIn (by simp +contextual),
    filterIn_none (tags' := groupTags) (chartType_tag _ _ _ _) (by decide),
    filterIn_none (tags' := groupTags) (combined_tag c) (by decide),
    filterIn_all (fun x hx => ha x (List.mem_append_left _ hx)),
    filterIn_all (fun x hx => ha x (List.mem_append_right _ hx))]
  simp only [List.nil_append, List.append_nil, List.map_append]
  refine mapM_append (primaryAxes_read hU ⟨h.xAxis, hf.xAxis⟩ ⟨h.yAxis, hf.yAxis⟩)
    (secondaryAxes_read hU ⟨h.x2Axis, fun h1 h2 => ?_⟩ ⟨h.y2Axis, fun h1 h2 => ?_⟩)
  · rcases h.x2Title with h | h
    · exact absurd h1 h
    · exact absurd h h2
  · rcases h.y2Title with h | h
    · exact absurd h1 h
    · exact absurd h h2

theorem readChart_eq (hU : U.Sane) {c : Chart} (h : ChartGood U parses shown c) (hf : ChartFilled shown c) :
    readChart (chartSpaceTree U parses c).toNode = some (chartMeant shown c) := by
  rw [toNode_parts]
  unfold readChart
  dsimp only
  rw [if_neg (fun h => h rfl)]
  unfold chartSpaceTree
  simp only [treeParts]
  rw [(h.spacePre.noTag (by decide)).child, child_head _ _ (by rfl)]
  unfold chartTree
  simp only [treeParts]
  have e1 : ∀ r, child "c:plotArea".toList (toNodes ((if c.body.titleHidden = true then
      [.empty "c:autoTitleDeleted".toList [("val".toList, "1".toList)]] else chartTitleTrees U c.body.title) ++
      plotAreaTree U parses c :: r)) = some (treeParts (plotAreaTree U parses c)) := by
    intro r
    rw [NoTag.child, child_head _ _ (by rfl)]
    split
    · exact NoTag.cons (by tagne) (NoTag.nil _)
    · exact NoTag.all (chartTitleTrees_tag _) (by decide)
  rw [e1]
  dsimp only
  rw [plotArea_groups hU h hf, plotArea_axes hU h hf]
  have e2 : readTitleRef (toNodes ((if c.body.titleHidden = true then
      [.empty "c:autoTitleDeleted".toList [("val".toList, "1".toList)]] else chartTitleTrees U c.body.title) ++
      plotAreaTree U parses c :: c.chartTail)) =
      some (if c.body.titleHidden = true then none else titleMeant shown c.body.title) := by
    have hr : NoTag "c:title".toList (plotAreaTree U parses c :: c.chartTail) :=
      NoTag.cons (by dsimp only [plotAreaTree, treeTag]; decide) (h.chartTail.noTag (by decide))
    split
    · exact readTitleRef_none ((NoTag.cons (by tagne) (NoTag.nil _)).append hr)
    · exact readTitleRef_eq hU h.title hf.title _ hr
  rw [e2]
  rfl

end Verif
