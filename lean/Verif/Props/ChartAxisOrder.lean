import Verif.Spec.AxisOrder
import Verif.Props.ChartOrder
import Verif.Props.ChartAxesDemo
/-!
C79: the elements of axes are in the order of the schema.
-/
namespace Verif
open Spec BMap

variable {U : Unicode} {parses : Str → Bool} {shown : Text → Nat → Nat → Content}

/-- The element of an axis. -/
def AxisForm.tag : AxisForm → Str
  | .cat => "c:catAx".toList
  | .date => "c:dateAx".toList
  | .val => "c:valAx".toList

theorem length_grid (t : Str) (on : Bool) (l : Option CLine) : (gridTrees t on l).length ≤ 1 := by
  unfold gridTrees
  split
  · split <;> simp
  · simp

theorem length_numFmt (a : AxisOpts) (ctx : AxisCtx) (f : AxisForm) : (a.numFmtOf ctx f).length ≤ 1 := by
  cases f <;> simp only [AxisOpts.numFmtOf, AxisOpts.catNumFmt, AxisOpts.valNumFmt]
  · split
    · simp
    · split <;> simp
  · split
    · simp
    · split <;> simp
  · simp

theorem length_cat (a other : AxisOpts) (ctx : AxisCtx) : ∀ p ∈ a.catCrosses other ctx, p.2.length ≤ 1 := by
  unfold AxisOpts.catCrosses
  intro p hp
  simp only [List.mem_cons, List.not_mem_nil, or_false] at hp
  rcases hp with rfl | rfl <;> dsimp only <;> split <;> try split
  all_goals simp

theorem length_val (other : AxisOpts) : ∀ p ∈ valCrosses other, p.2.length ≤ 1 := by
  unfold valCrosses
  intro p hp
  simp only [List.mem_cons, List.not_mem_nil, or_false] at hp
  rcases hp with rfl | rfl <;> dsimp only <;> split
  all_goals simp

theorem few_append {a b : List (Str × List Tree)} (ha : ∀ p ∈ a, p.2.length ≤ 1) (hb : ∀ p ∈ b, p.2.length ≤ 1) :
    ∀ p ∈ a ++ b, p.2.length ≤ 1 := by
  intro p hp
  rcases List.mem_append.mp hp with hp | hp
  · exact ha p hp
  · exact hb p hp

theorem few_one {n : Str} {ts : List Tree} {secs : List (Str × List Tree)} (h : ts.length ≤ 1) (hr : ∀ p ∈ secs, p.2.length ≤ 1) :
    ∀ p ∈ (n, ts) :: secs, p.2.length ≤ 1 := by
  intro p hp
  rcases List.mem_cons.mp hp with rfl | hp
  · exact h
  · exact hr p hp

theorem few_nil : ∀ p ∈ ([] : List (Str × List Tree)), p.2.length ≤ 1 := fun _ h => absurd h List.not_mem_nil

theorem length_post (a other : AxisOpts) (ctx : AxisCtx) (f : AxisForm) : ∀ p ∈ a.postOf other ctx f, p.2.length ≤ 1 := by
  have hs : ∀ p ∈ a.skipSecs, p.2.length ≤ 1 := few_one (length_if _) (few_one (length_if _) few_nil)
  cases f with
  | cat =>
    exact few_append (few_append (length_cat a other ctx) (few_one (length_if' _) (few_one (Nat.le_refl 1) (few_one (Nat.le_refl 1) few_nil)))) hs
  | date =>
    exact few_append (few_append (few_append (length_cat a other ctx) (few_one (length_if _) (few_one (Nat.le_refl 1) few_nil))) hs)
      (few_one (length_textVal _ _) (few_one (length_optVal _ _) (few_one (length_textVal _ _) (few_one (length_optVal _ _) few_nil))))
  | val =>
    exact few_append (length_val other) (few_one (Nat.le_refl 1) (few_one (length_ite (length_textVal _ _) (Nat.zero_le 1))
      (few_one (length_ite (length_textVal _ _) (Nat.zero_le 1)) (few_one (length_if _) few_nil))))

theorem length_axis (id cross : Nat) (tt : ChartTitle) (a other : AxisOpts) (ctx : AxisCtx) (f : AxisForm) :
    ∀ p ∈ axisSecs U id cross tt a other (a.numFmtOf ctx f) (a.postOf other ctx f), p.2.length ≤ 1 := by
  unfold axisSecs
  exact few_one (Nat.le_refl 1) (few_append
    (few_one (Nat.le_refl 1) (few_one (length_if _) (few_one (Nat.le_refl 1) (few_one (length_grid _ _ _) (few_one (length_grid _ _ _) few_nil)))))
    (few_one (length_title _) (few_append
      (few_one (length_numFmt a ctx f) (few_one (length_optVal _ _) (few_one (length_optVal _ _) (few_one (Nat.le_refl 1)
        (few_one (length_format _) (few_one (length_opt _) few_nil))))))
      (few_one (Nat.le_refl 1) (length_post a other ctx f)))))

theorem mem_tags {secs : List (Str × List Tree)} (h : SecTags secs) (hn : (secs.map Prod.fst).Nodup) {t : Text} (ht : t ∈ tagsOf (toNodes (secTrees secs)))
    {ts : List Tree} (hl : secs.lookup t = some ts) : ts ≠ [] := by
  rw [tagsOf_trees] at ht
  obtain ⟨x, hx, rfl⟩ := List.mem_map.mp ht
  exact List.ne_nil_of_mem (mem_secTrees h hn hx hl)

theorem scaling_order {a : AxisOpts} (h : a.Ok) : InOrder scalingOrder [] (tagsOf (toNodes (secTrees a.scalingSecs))) := by
  refine trees_order (scaling_secs h).tags ?_ ?_ ?_
  · unfold AxisOpts.scalingSecs
    repeat refine out_cons (fun h => absurd (by decide) h) ?_
    exact fun p hp => absurd hp List.not_mem_nil
  · show ((["c:logBase".toList, "c:orientation".toList, "c:max".toList, "c:min".toList] : List Text).filter _).Pairwise _
    decide
  · have : ∀ p ∈ a.scalingSecs, p.2.length ≤ 1 :=
      few_one (length_if _) (few_one (Nat.le_refl 1) (few_one (length_if _) (few_one (length_if _) few_nil)))
    exact fun p hp => Or.inl (this p hp)

theorem cat_crosses (a other : AxisOpts) (ctx : AxisCtx) : ∃ A B, a.catCrosses other ctx = [("c:crosses".toList, A), ("c:crossesAt".toList, B)] ∧
    (A = [] ∨ B = []) := by
  unfold AxisOpts.catCrosses
  dsimp only
  cases other.crossing with
  | value v => exact ⟨_, _, rfl, Or.inl (ite_self _)⟩
  | _ => exact ⟨_, _, rfl, Or.inr (ite_self _)⟩

theorem val_crosses (other : AxisOpts) : ∃ A B, valCrosses other = [("c:crosses".toList, A), ("c:crossesAt".toList, B)] ∧
    (A = [] ∨ B = []) := by
  unfold valCrosses
  cases other.crossing with
  | value v => exact ⟨_, _, rfl, Or.inl rfl⟩
  | category v => exact ⟨_, _, rfl, Or.inl rfl⟩
  | _ => exact ⟨_, _, rfl, Or.inr rfl⟩

theorem axis_in_order {a other : AxisOpts} {ctx : AxisCtx} {f : AxisForm} {x : ChartAxis} (h : IsAxis a other ctx f x) (ha : a.Ok) (ho : other.Ok)
    (hx : attrSafe ctx.numFormat = true) (ht : ∀ k ∈ chartTitleTrees U x.title, treeOk k = true)
    (hd : f = .date → a.labelInterval ≤ 1 ∧ a.tickInterval ≤ 1) (id cross : Nat) :
    AxisInOrder f.tag (treeParts (axisTree U f.tag id cross x)).2 := by
  rw [axis_kids h]
  have hn := axis_nodup U id cross x.title a other (a.numFmtOf ctx f) ctx f
  have hs := (axisSecs_ok (id := id) (cross := cross) (other := other) ha ht (code_trees ha hx f).ok (post_secs ha ho ctx f)).tags
  refine ⟨trees_order hs ?_ ?_ (fun p hp => Or.inl (length_axis _ _ _ _ _ _ _ p hp)), ?_, ?_⟩
  · have shared : ∀ order : List Text, (∀ t ∈ axisSharedOrder, t ∈ order) → ∀ post : List (Str × List Tree), (∀ p ∈ post, p.1 ∉ order → p.2 = []) →
        ∀ p ∈ axisSecs U id cross x.title a other (a.numFmtOf ctx f) post, p.1 ∉ order → p.2 = [] := by
      intro order ho post hp
      have g : ∀ n, n ∈ axisSharedOrder → ∀ ts : List Tree, n ∉ order → ts = [] := fun n hn ts hq => absurd (ho n hn) hq
      unfold axisSecs AxisOpts.preSecs AxisOpts.midSecs
      simp only [List.cons_append, List.nil_append]
      repeat refine out_cons (g _ (by decide) _) ?_
      exact hp
    cases f with
    | cat =>
      refine shared (axisOrder AxisForm.cat.tag) (by decide) _ ?_
      intro p hp hq
      refine absurd ?_ hq
      have : ∀ n ∈ (["c:crosses".toList, "c:crossesAt".toList, "c:auto".toList, "c:lblAlgn".toList, "c:lblOffset".toList, "c:tickLblSkip".toList,
        "c:tickMarkSkip".toList] : List Text), n ∈ axisOrder AxisForm.cat.tag := by decide
      exact this _ (List.mem_map_of_mem (f := Prod.fst) hp)
    | date =>
      obtain ⟨h1, h2⟩ := hd rfl
      refine shared (axisOrder AxisForm.date.tag) (by decide) _ ?_
      show ∀ p ∈ a.datePost other ctx, _
      unfold AxisOpts.datePost AxisOpts.skipSecs AxisOpts.catCrosses
      simp only [List.cons_append, List.nil_append]
      have g : ∀ n, n ∈ axisOrder AxisForm.date.tag → ∀ ts : List Tree, n ∉ axisOrder AxisForm.date.tag → ts = [] := fun n hn ts hq => absurd hn hq
      refine out_cons (g _ (by decide) _) (out_cons (g _ (by decide) _) (out_cons (g _ (by decide) _) (out_cons (g _ (by decide) _)
        (out_cons (fun _ => if_neg (by omega)) (out_cons (fun _ => if_neg (by omega)) ?_)))))
      refine out_cons (g _ (by decide) _) (out_cons (g _ (by decide) _) (out_cons (g _ (by decide) _) (out_cons (g _ (by decide) _) ?_)))
      exact fun p hp => absurd hp List.not_mem_nil
    | val =>
      refine shared (axisOrder AxisForm.val.tag) (by decide) _ ?_
      intro p hp hq
      refine absurd ?_ hq
      have : ∀ n ∈ (["c:crosses".toList, "c:crossesAt".toList, "c:crossBetween".toList, "c:majorUnit".toList, "c:minorUnit".toList,
        "c:dispUnits".toList] : List Text), n ∈ axisOrder AxisForm.val.tag := by decide
      exact this _ (List.mem_map_of_mem (f := Prod.fst) hp)
  · rw [axisSecs_names]
    cases f with
    | cat =>
      show ((_ ++ (["c:crosses".toList, "c:crossesAt".toList, "c:auto".toList, "c:lblAlgn".toList,
       "c:lblOffset".toList, "c:tickLblSkip".toList, "c:tickMarkSkip".toList] : List Text)).filter _).Pairwise _
      decide
    | date =>
      show ((_ ++ (["c:crosses".toList, "c:crossesAt".toList, "c:auto".toList,
       "c:lblOffset".toList, "c:tickLblSkip".toList, "c:tickMarkSkip".toList, "c:majorUnit".toList, "c:majorTimeUnit".toList,
       "c:minorUnit".toList, "c:minorTimeUnit".toList] : List Text)).filter _).Pairwise _
      decide
    | val =>
      show ((_ ++ (["c:crosses".toList, "c:crossesAt".toList, "c:crossBetween".toList,
       "c:majorUnit".toList, "c:minorUnit".toList, "c:dispUnits".toList] : List Text)).filter _).Pairwise _
      decide
  · have two : ∃ t1 t2, (axisSecs U id cross x.title a other (a.numFmtOf ctx f) (a.postOf other ctx f)).lookup "c:crosses".toList = some t1 ∧
        (axisSecs U id cross x.title a other (a.numFmtOf ctx f) (a.postOf other ctx f)).lookup "c:crossesAt".toList = some t2 ∧ (t1 = [] ∨ t2 = []) := by
      obtain ⟨A, B, e, hAB⟩ := cat_crosses a other ctx
      obtain ⟨A', B', e', hAB'⟩ := val_crosses other
      cases f with
      | cat =>
        refine ⟨A, B, ?_, ?_, hAB⟩ <;> show (axisSecs U id cross x.title a other _ (a.catPost other ctx)).lookup _ = _ <;>
          unfold axisSecs AxisOpts.preSecs AxisOpts.midSecs AxisOpts.catPost AxisOpts.skipSecs <;> rw [e] <;>
          simp only [List.cons_append, List.nil_append] <;> sec_look
      | date =>
        refine ⟨A, B, ?_, ?_, hAB⟩ <;> show (axisSecs U id cross x.title a other _ (a.datePost other ctx)).lookup _ = _ <;>
          unfold axisSecs AxisOpts.preSecs AxisOpts.midSecs AxisOpts.datePost AxisOpts.skipSecs <;> rw [e] <;>
          simp only [List.cons_append, List.nil_append] <;> sec_look
      | val =>
        refine ⟨A', B', ?_, ?_, hAB'⟩ <;> show (axisSecs U id cross x.title a other _ (a.valPost other)).lookup _ = _ <;>
          unfold axisSecs AxisOpts.preSecs AxisOpts.midSecs AxisOpts.valPost <;> rw [e'] <;>
          simp only [List.cons_append, List.nil_append] <;> sec_look
    obtain ⟨t1, t2, l1, l2, h | h⟩ := two
    · exact Or.inl fun hm => mem_tags hs hn hm l1 h
    · exact Or.inr fun hm => mem_tags hs hn hm l2 h
  · intro s hs'
    obtain ⟨y, hy, hty, rfl⟩ := mem_elemsIn hs'
    have hy := mem_secTrees hs hn hy (ts := [.node "c:scaling".toList [] (secTrees a.scalingSecs)]) (by
      rw [List.mem_singleton.mp hty]
      unfold axisSecs AxisOpts.preSecs AxisOpts.midSecs; simp only [List.cons_append, List.nil_append]; sec_look)
    rw [List.mem_singleton.mp hy]
    exact scaling_order ha

theorem formOf_tag (g : ChartGroup) (date : Bool) : catAxisTag g date = (formOf g date).tag := by
  unfold catAxisTag formOf
  split
  · rfl
  · cases date <;> rfl

theorem formOf_date {g : ChartGroup} {date : Bool} (h : formOf g date = .date) : date = true := by
  unfold formOf at h
  split at h
  · cases h
  · cases date
    · cases h
    · rfl

/-- Both axes of a pair are in order. -/
theorem pair_in_order {g drawn : ChartGroup} {calls : List (AxisName × AxisCall)} (hc : ∀ c ∈ calls, axisCallOk c.2 = true)
    (hd : kindAsked g calls .x = .date → ∀ n, lastSaid saysLabelInterval 0 (axisCalls n calls) ≤ 1 ∧
      lastSaid saysTickInterval 0 (axisCalls n calls) ≤ 1)
    {cat val : AxisName} {date : Bool} (hdate : date = true → kindAsked g calls .x = .date) {ctx : AxisCtx} (hx : attrSafe ctx.numFormat = true)
    {c v : ChartAxis}
    (hcat : IsAxis (axisOf (calls.foldl AxesOpts.exec (newAxes g)) cat) (axisOf (calls.foldl AxesOpts.exec (newAxes g)) val) ctx (formOf drawn date) c)
    (hval : IsAxis (axisOf (calls.foldl AxesOpts.exec (newAxes g)) val) (axisOf (calls.foldl AxesOpts.exec (newAxes g)) cat) ctx .val v)
    (htc : ∀ k ∈ chartTitleTrees U c.title, treeOk k = true) (htv : ∀ k ∈ chartTitleTrees U v.title, treeOk k = true) (ids : Nat × Nat) :
    AxisInOrder (catAxisTag drawn date) (treeParts (axisTree U (catAxisTag drawn date) ids.1 ids.2 c)).2 ∧
    AxisInOrder "c:valAx".toList (treeParts (axisTree U "c:valAx".toList ids.2 ids.1 v)).2 := by
  constructor
  · rw [formOf_tag]
    refine axis_in_order hcat (axesOk hc cat) (axesOk hc val) hx htc (fun hf => ?_) ids.1 ids.2
    have := hd (hdate (formOf_date hf)) cat
    rw [axes_run, run_labelInterval, run_tickInterval]
    have nl : (axisOf (newAxes g) cat).labelInterval = 0 ∧ (axisOf (newAxes g) cat).tickInterval = 0 := by
      cases g <;> cases cat <;> exact ⟨rfl, rfl⟩
    rw [nl.1, nl.2]
    exact this
  · exact axis_in_order hval (axesOk hc val) (axesOk hc cat) hx htv (fun hf => nomatch hf) ids.2 ids.1

theorem axes_in_order {c : Chart} (hg : ChartGood U parses shown c) {calls : List (AxisName × AxisCall)} (hc : ∀ c ∈ calls, axisCallOk c.2 = true)
    {ctx : AxisCtx} (hx : attrSafe ctx.numFormat = true)
    (hr : ∀ n t r, (n, AxisCall.name t r) ∈ calls → r.sheet ≠ [] → (n = .x ∨ n = .y) ∧ RefGood U parses shown .name r)
    (hd : kindAsked c.body.group calls .x = .date → ∀ n, lastSaid saysLabelInterval 0 (axisCalls n calls) ≤ 1 ∧
      lastSaid saysTickInterval 0 (axisCalls n calls) ≤ 1) (m : CacheMap)
    (hf : ChartFilled shown ((c.withAxes calls ctx).update m)) :
    ∀ x ∈ primaryAxes U ((c.withAxes calls ctx).update m).body ((c.withAxes calls ctx).update m).axisIds ++ secondaryAxes U ((c.withAxes calls ctx).update m),
      AxisInOrder (treeTag x) (treeParts x).2 := by
  have gm := (withAxes_good hg hc hx hr).update m
  have eg : secondGroup ((c.withAxes calls ctx).update m) = secondGroup c := by
    unfold secondGroup Chart.update Chart.withAxes
    cases c.combined <;> rfl
  have eg' : (c.combined.map (·.group)).getD c.body.group = secondGroup c := by
    unfold secondGroup
    cases c.combined <;> rfl
  have form : ∀ gg, (calls.foldl AxesOpts.exec (newAxes c.body.group)).catForm gg =
      formOf gg (decide ((calls.foldl AxesOpts.exec (newAxes c.body.group)).x.axisType = .date)) := by
    intro gg
    unfold formOf AxesOpts.catForm
    simp only [decide_eq_true_eq]
  have dx : decide ((calls.foldl AxesOpts.exec (newAxes c.body.group)).x.axisType = .date) = true → kindAsked c.body.group calls .x = .date := by
    intro h
    have : (axisOf (calls.foldl AxesOpts.exec (newAxes c.body.group)) .x).axisType = kindAsked c.body.group calls .x := by
      rw [axes_run]; exact run_axisType _ _
    rw [← this]
    exact of_decide_eq_true h
  have ebx : ((c.withAxes calls ctx).update m).body.xAxis.isDate = decide ((calls.foldl AxesOpts.exec (newAxes c.body.group)).x.axisType = .date) := rfl
  have first : ∀ x ∈ primaryAxes U ((c.withAxes calls ctx).update m).body ((c.withAxes calls ctx).update m).axisIds,
      AxisInOrder (treeTag x) (treeParts x).2 := by
    rw [primaryAxes_eq, show ((c.withAxes calls ctx).update m).body.group = c.body.group from rfl]
    have hX : ((c.withAxes calls ctx).update m).body.xAxis = ((calls.foldl AxesOpts.exec (newAxes c.body.group)).x.toAxis
      (calls.foldl AxesOpts.exec (newAxes c.body.group)).y ctx (if c.body.group = .bar then .val else
        (calls.foldl AxesOpts.exec (newAxes c.body.group)).catForm c.body.group)).update m := rfl
    have hY : ((c.withAxes calls ctx).update m).body.yAxis = ((calls.foldl AxesOpts.exec (newAxes c.body.group)).y.toAxis
      (calls.foldl AxesOpts.exec (newAxes c.body.group)).x ctx (if c.body.group = .bar then
        (calls.foldl AxesOpts.exec (newAxes c.body.group)).catForm c.body.group else .val)).update m := rfl
    split
    · exact fun x hx => absurd hx List.not_mem_nil
    · unfold axisPair
      rw [ebx]
      by_cases hb : c.body.group = .bar
      · rw [if_pos hb] at hX hY
        obtain ⟨h1, h2⟩ := pair_in_order (U := U) (drawn := c.body.group) (cat := .y) (val := .x) hc hd dx hx
          (c := ((c.withAxes calls ctx).update m).body.yAxis) (v := ((c.withAxes calls ctx).update m).body.xAxis)
          (by rw [hY, form]; exact (isAxis _ _ _ _).update m) (by rw [hX]; exact (isAxis _ _ _ _).update m)
          (chartTitleTrees_ok gm.yAxis.title hf.yAxis) (chartTitleTrees_ok gm.xAxis.title hf.xAxis) ((c.withAxes calls ctx).update m).axisIds
        intro x hx
        simp only [List.mem_cons, List.not_mem_nil, or_false, if_pos hb] at hx
        rcases hx with rfl | rfl
        · exact h1
        · exact h2
      · rw [if_neg hb] at hX hY
        obtain ⟨h1, h2⟩ := pair_in_order (U := U) (drawn := c.body.group) (cat := .x) (val := .y) hc hd dx hx
          (c := ((c.withAxes calls ctx).update m).body.xAxis) (v := ((c.withAxes calls ctx).update m).body.yAxis)
          (by rw [hX, form]; exact (isAxis _ _ _ _).update m) (by rw [hY]; exact (isAxis _ _ _ _).update m)
          (chartTitleTrees_ok gm.xAxis.title hf.xAxis) (chartTitleTrees_ok gm.yAxis.title hf.yAxis) ((c.withAxes calls ctx).update m).axisIds
        intro x hx
        simp only [List.mem_cons, List.not_mem_nil, or_false, if_neg hb] at hx
        rcases hx with rfl | rfl
        · exact h1
        · exact h2
  have second : ∀ x ∈ secondaryAxes U ((c.withAxes calls ctx).update m), AxisInOrder (treeTag x) (treeParts x).2 := by
    rw [secondaryAxes_eq]
    dsimp only
    rw [eg]
    have two := gm.second
    have hX : ((c.withAxes calls ctx).update m).body.x2Axis = ((calls.foldl AxesOpts.exec (newAxes c.body.group)).x2.toAxis
      (calls.foldl AxesOpts.exec (newAxes c.body.group)).y2 ctx (if (c.combined.map (·.group)).getD c.body.group = .bar then .val else
        (calls.foldl AxesOpts.exec (newAxes c.body.group)).catForm ((c.combined.map (·.group)).getD c.body.group))) := rfl
    have hY : ((c.withAxes calls ctx).update m).body.y2Axis = ((calls.foldl AxesOpts.exec (newAxes c.body.group)).y2.toAxis
      (calls.foldl AxesOpts.exec (newAxes c.body.group)).x2 ctx (if (c.combined.map (·.group)).getD c.body.group = .bar then
        (calls.foldl AxesOpts.exec (newAxes c.body.group)).catForm ((c.combined.map (·.group)).getD c.body.group) else .val)) := rfl
    rw [eg'] at hX hY
    have key : AxisInOrder (treeTag (axisPair U (secondGroup c) ((c.withAxes calls ctx).update m).body.xAxis.isDate
          ((c.withAxes calls ctx).update m).axis2Ids ((c.withAxes calls ctx).update m).body.x2Axis ((c.withAxes calls ctx).update m).body.y2Axis).1)
          (treeParts (axisPair U (secondGroup c) ((c.withAxes calls ctx).update m).body.xAxis.isDate
          ((c.withAxes calls ctx).update m).axis2Ids ((c.withAxes calls ctx).update m).body.x2Axis ((c.withAxes calls ctx).update m).body.y2Axis).1).2 ∧
        AxisInOrder (treeTag (axisPair U (secondGroup c) ((c.withAxes calls ctx).update m).body.xAxis.isDate
          ((c.withAxes calls ctx).update m).axis2Ids ((c.withAxes calls ctx).update m).body.x2Axis ((c.withAxes calls ctx).update m).body.y2Axis).2)
          (treeParts (axisPair U (secondGroup c) ((c.withAxes calls ctx).update m).body.xAxis.isDate
          ((c.withAxes calls ctx).update m).axis2Ids ((c.withAxes calls ctx).update m).body.x2Axis ((c.withAxes calls ctx).update m).body.y2Axis).2).2 := by
      unfold axisPair
      rw [ebx]
      by_cases hb : secondGroup c = .bar
      · rw [if_pos hb] at hX hY
        rw [if_pos hb, if_pos hb]
        exact pair_in_order (U := U) (drawn := secondGroup c) (cat := .y2) (val := .x2) hc hd dx hx
          (c := ((c.withAxes calls ctx).update m).body.y2Axis) (v := ((c.withAxes calls ctx).update m).body.x2Axis)
          (by rw [hY, form]; exact isAxis _ _ _ _) (by rw [hX]; exact isAxis _ _ _ _)
          (chartTitleTrees_ok two.2.1.title two.2.2) (chartTitleTrees_ok two.1.1.title two.1.2) ((c.withAxes calls ctx).update m).axis2Ids
      · rw [if_neg hb] at hX hY
        rw [if_neg hb, if_neg hb]
        exact pair_in_order (U := U) (drawn := secondGroup c) (cat := .x2) (val := .y2) hc hd dx hx
          (c := ((c.withAxes calls ctx).update m).body.x2Axis) (v := ((c.withAxes calls ctx).update m).body.y2Axis)
          (by rw [hX, form]; exact isAxis _ _ _ _) (by rw [hY]; exact isAxis _ _ _ _)
          (chartTitleTrees_ok two.1.1.title two.1.2) (chartTitleTrees_ok two.2.1.title two.2.2) ((c.withAxes calls ctx).update m).axis2Ids
    obtain ⟨h1, h2⟩ := key
    intro x hx
    split at hx
    · split at hx
      · cases hx
      · split at hx <;> simp only [List.mem_cons, List.not_mem_nil, or_false] at hx <;> rcases hx with rfl | rfl <;> assumption
    · cases hx
  intro x hx
  rcases List.mem_append.mp hx with hx | hx
  · exact first x hx
  · exact second x hx

theorem axisArea {c : Chart} (gm : ChartGood U parses shown c)
    (h : ∀ x ∈ primaryAxes U c.body c.axisIds ++ secondaryAxes U c, AxisInOrder (treeTag x) (treeParts x).2) :
    ∃ area, plotAreaOf (chartSpaceTree U parses c).toNode = some area ∧ AxesOrdered area := by
  refine ⟨(treeParts (plotAreaTree U parses c)).2, ?_, ?_⟩
  · rw [toNode_parts]
    unfold plotAreaOf
    dsimp only
    rw [if_pos (show treeTag (chartSpaceTree U parses c) = "c:chartSpace".toList from rfl)]
    unfold chartSpaceTree
    simp only [treeParts]
    rw [(gm.spacePre.noTag (by decide)).child, child_head (t := "c:chart".toList) _ _ (by rfl)]
    unfold chartTree
    simp only [treeParts]
    show Option.map _ (child "c:plotArea".toList _) = _
    rw [NoTag.child, child_head (t := "c:plotArea".toList) _ _ (by rfl)]
    · rfl
    · split
      · exact NoTag.cons (by tagne) (NoTag.nil _)
      · exact NoTag.all (chartTitleTrees_tag _) (by decide)
  · intro e he
    obtain ⟨x, hx, ht, rfl⟩ := mem_elemsIn (show e ∈ elemsIn axisTags (toNodes (c.layout ++ chartTypeTrees U parses c.axisIds c.axis2Ids c.body 0 ++
      combinedTrees U parses c ++ primaryAxes U c.body c.axisIds ++ secondaryAxes U c ++ c.areaTail)) from he)
    have hgt := (by decide : ∀ t ∈ groupTags, t ∉ axisTags)
    simp only [List.mem_append, or_assoc] at hx
    rcases hx with hx | hx | hx | hx | hx | hx
    · exact absurd (List.mem_append_right _ ht) (gm.layout x hx).2
    · exact absurd ht (hgt _ (chartType_tag _ _ _ _ x hx))
    · exact absurd ht (hgt _ (combined_tag c x hx))
    · exact h x (List.mem_append_left _ hx)
    · exact h x (List.mem_append_right _ hx)
    · exact absurd (List.mem_append_right _ ht) (gm.areaTail x hx).2

/-- C79: when charts are saved, the elements of each axis and of its scale are those of the schema for that kind of axis, in its order, each
is there at most once, and the axis crosses the other at one place, for all calls on the axes. Missing for the full property: intervals of
labels and tick marks of date axes (`C79_date_counterexample`). -/
theorem C79_axis_order_partial (U : Unicode) (parses : Str → Bool) (lower : Str → Str) (cfg : Cfg)
    (hstd : cfg.isStandard) {Fmt : Type} [DecidableEq Fmt] (merge : Fmt → Fmt → Fmt) (dflt : Fmt) (sheets : List (Str × Sheet Fmt))
    (hm : Made lower cfg merge dflt sheets) (charts out : List Chart) (h : prepareCaches sheets charts = some out)
    (sst : SST) (i : Nat) (c : Chart) (calls : List (AxisName × AxisCall)) (ctx : AxisCtx)
    (hi : charts[i]? = some (c.withAxes calls ctx)) (hg : ChartGood U parses (shownOn sheets sst) c)
    (hc : ∀ c ∈ calls, axisCallOk c.2 = true) (hx : attrSafe ctx.numFormat = true)
    (hr : ∀ n t r, (n, AxisCall.name t r) ∈ calls → r.sheet ≠ [] → (n = .x ∨ n = .y) ∧ RefGood U parses (shownOn sheets sst) .name r)
    (hd : kindAsked c.body.group calls .x = .date → ∀ n, lastSaid saysLabelInterval 0 (axisCalls n calls) ≤ 1 ∧
      lastSaid saysTickInterval 0 (axisCalls n calls) ≤ 1) :
    ∃ c' node area, out[i]? = some c' ∧ parseDoc (writePart (chartSpaceTree U parses c')) = some node ∧
      plotAreaOf node = some area ∧ AxesOrdered area := by
  obtain ⟨m, rfl, hcm⟩ := prepareCaches_some h
  have good := withAxes_good hg hc hx hr
  have hf : ChartFilled (shownOn sheets sst) ((c.withAxes calls ctx).update m) := by
    refine chart_filled (hm.shows hstd sst) hcm (fun r hr => ?_) good
    exact List.mem_flatMap.mpr ⟨_, List.mem_of_getElem? hi, hr⟩
  obtain ⟨area, h1, h2⟩ := axisArea (good.update m) (axes_in_order hg hc hx hr hd m hf)
  exact ⟨(c.withAxes calls ctx).update m, _, area, by rw [List.getElem?_map, hi]; rfl,
    C07_part_roundtrip _ (chartSpaceTree_ok (good.update m) hf), h1, h2⟩

/-- The sample meets the conditions of `C79_axis_order_partial`. -/
example : ∃ out, prepareCaches salesSheets [salesChart.withAxes salesCalls {}] = some out ∧
    ∃ c' node area, out[0]? = some c' ∧ parseDoc (writePart (chartSpaceTree asciiUnicode demoParses c')) = some node ∧
      plotAreaOf node = some area ∧ AxesOrdered area := by
  refine ⟨_, rfl, ?_⟩
  exact C79_axis_order_partial asciiUnicode demoParses id {} ⟨rfl, rfl, rfl, rfl⟩ (fun a _ => a) 0 salesSheets salesSheets_made
    [salesChart.withAxes salesCalls {}] _ rfl SST.new 0 salesChart salesCalls {} rfl salesChart_good
    (by decide +kernel) (by decide +kernel) salesCalls_names (fun h => absurd h (by decide +kernel))

/-- The elements of the axes of a chart. -/
def axisNames (c : Chart) : Option (List (Text × List Text)) :=
  (plotAreaOf (chartSpaceTree asciiUnicode demoParses c).toNode).map fun area =>
    (elemsIn axisTags area).map fun e => (e.1, tagsOf e.2.2)

/-- F179: an interval of labels on a date axis writes an element that date axes do not have. -/
theorem C79_date_counterexample :
    axisNames (axisChart .column false [(.x, .dateAxis true), (.x, .labelInterval 2)]) = some
      [("c:dateAx".toList, ["c:axId".toList, "c:scaling".toList, "c:axPos".toList, "c:tickLblPos".toList, "c:crossAx".toList, "c:crosses".toList, "c:lblOffset".toList, "c:tickLblSkip".toList]),
       ("c:valAx".toList, ["c:axId".toList, "c:scaling".toList, "c:axPos".toList, "c:majorGridlines".toList, "c:numFmt".toList, "c:tickLblPos".toList, "c:crossAx".toList, "c:crosses".toList, "c:crossBetween".toList])] ∧
    ¬ InOrder (axisOrder "c:dateAx".toList) [] ["c:axId".toList, "c:scaling".toList, "c:axPos".toList, "c:tickLblPos".toList, "c:crossAx".toList, "c:crosses".toList, "c:lblOffset".toList, "c:tickLblSkip".toList] := by
  refine ⟨by decide +kernel, fun h => ?_⟩
  exact absurd (h.1 "c:tickLblSkip".toList (by decide)) (by decide)

end Verif
