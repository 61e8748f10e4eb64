import Verif.Props.ChartDoc
/-!
C34: charts show the values of their cells. C54: the numbering of the series and the axes of a chart.
-/
set_option linter.unusedSectionVars false
namespace Verif
open Spec BMap
variable {Fmt : Type} [DecidableEq Fmt] {cfg : Cfg} {dflt : Fmt}
variable {U : Unicode} {parses : Str → Bool} {shown : Text → Nat → Nat → Content}

/-! ### The part can be written -/

theorem seriesTitleTrees_ok {t : ChartTitle} (h : NameGood U parses shown t)
    (hf : t.name = [] → t.ref.range.sheet ≠ [] → Filled shown t.ref) : ∀ k ∈ seriesTitleTrees U t, treeOk k = true := by
  unfold seriesTitleTrees
  simp only [hasData_iff, notEmpty_iff]
  refine ok_ite (fun _ => ok_single ?_) fun hn => ok_ite (fun hs => ok_single ?_) fun _ => ok_nil
  · exact treeOk_node (by decide) attrsGood_nil (ok_single (dataTree_ok (by decide) h.name))
  · have hn : t.name = [] := Classical.not_not.mp hn
    exact treeOk_node (by decide) attrsGood_nil (ok_single (strRefTree_ok U ((h.ref hn hs).safe (hf hn hs))))

theorem errBarsTree_ok {e : ErrorBars} (h : ErrGood U parses shown e)
    (hf : e.custom = true → Filled shown e.plus ∧ Filled shown e.minus) : treeOk (errBarsTree U parses e) = true := by
  refine treeOk_node (by decide) attrsGood_nil (ok_append (ok_append h.head.ok (ok_ite (fun hc => ?_) fun _ => h.plain.ok))
    h.tail.ok)
  exact ok_cons (treeOk_node (by decide) attrsGood_nil (ok_single (cacheRefTree_ok U parses _ ((h.plus hc).safe (hf hc).1))))
    (ok_single (treeOk_node (by decide) attrsGood_nil (ok_single (cacheRefTree_ok U parses _ ((h.minus hc).safe (hf hc).2)))))

theorem dataTrees_ok {g : ChartGroup} {s : ChartSeries} (h : SeriesGood U parses shown g s) (hf : SeriesFilled shown s) :
    ∀ k ∈ dataTrees U parses g s, treeOk k = true := by
  have hv : RefSafe s.values := h.values.safe hf.values
  have hc : s.cats.range.sheet ≠ [] → RefSafe s.cats := fun hs => (h.cats hs).safe (hf.cats hs)
  unfold dataTrees
  split
  · exact ok_cons (treeOk_node (by decide) attrsGood_nil (ok_single (cacheRefTree_ok U parses _ (hc (h.scatter rfl)))))
      (ok_single (treeOk_node (by decide) attrsGood_nil (ok_single (cacheRefTree_ok U parses _ hv))))
  · refine ok_append (ok_ite (fun hs => ok_single ?_) fun _ => ok_nil) (ok_single ?_)
    · exact treeOk_node (by decide) attrsGood_nil (ok_single (cacheRefTree_ok U parses _ (hc ((hasData_iff _).mp hs))))
    · exact treeOk_node (by decide) attrsGood_nil (ok_single (cacheRefTree_ok U parses _ hv))

theorem valTree_ok {t : Str} (ht : isName t = true) (n : Nat) : treeOk (.empty t [("val".toList, showNat n)]) = true :=
  treeOk_empty ht (attrsGood_one (by decide) (showNat_attrSafe _))

theorem seriesTree_ok {g : ChartGroup} {s : ChartSeries} (h : SeriesGood U parses shown g s) (hf : SeriesFilled shown s)
    (i : Nat) : treeOk (seriesTree U parses g i s) = true := by
  refine treeOk_node (by decide) attrsGood_nil (ok_cons (valTree_ok (by decide) i) (ok_cons (valTree_ok (by decide) i)
    (ok_append (ok_append (ok_append (ok_append (seriesTitleTrees_ok h.title hf.title) h.pre.ok) ?_)
      (dataTrees_ok h hf)) h.post.ok)))
  rw [errBarsTrees_eq]
  intro k hk
  obtain ⟨e, he, rfl⟩ := List.mem_map.mp hk
  rcases err_mem he with he | he
  · exact errBarsTree_ok (h.xErr e he) (hf.xErr e he)
  · exact errBarsTree_ok (h.yErr e he) (hf.yErr e he)

theorem chartType_ok {b : ChartBody} (h : GroupGood U parses shown b) (hf : ∀ s ∈ b.series, SeriesFilled shown s)
    (ids ids2 : Nat × Nat) (i : Nat) : ∀ k ∈ chartTypeTrees U parses ids ids2 b i, treeOk k = true := by
  have hg : ∀ b, GroupGood U parses shown b → (∀ s ∈ b.series, SeriesFilled shown s) → ∀ ids i p,
      ∀ k ∈ groupTrees U parses ids b i (getSeries b p), treeOk k = true := by
    intro b h hf ids i p
    refine ok_ite (fun _ => ok_nil) fun _ => ok_single (treeOk_node (by cases b.group <;> decide) attrsGood_nil
      (ok_append (ok_append (ok_append h.head.ok ?_) h.tail.ok) ?_))
    · rw [seriesTrees_eq]
      intro k hk
      obtain ⟨q, hq, rfl⟩ := List.mem_map.mp hk
      have hm := (List.mem_filter.mp (List.fst_mem_of_mem_zipIdx hq)).1
      exact seriesTree_ok (h.series _ hm) (hf _ hm) _
    · exact ok_ite (fun _ => ok_nil) fun _ => ok_cons (valTree_ok (by decide) _) (ok_single (valTree_ok (by decide) _))
  exact ok_append (hg b h hf _ _ _) (hg b.second h.second hf _ _ false)

theorem chartTitleTrees_ok {t : ChartTitle} (h : TitleGood U parses shown t)
    (hf : t.name = [] → t.ref.range.sheet ≠ [] → Filled shown t.ref) : ∀ k ∈ chartTitleTrees U t, treeOk k = true := by
  unfold chartTitleTrees
  simp only [hasData_iff, notEmpty_iff]
  refine ok_ite (fun _ => ok_single ?_) fun hn => ok_ite (fun hs => ok_single ?_) fun _ => ?_
  · exact treeOk_node (by decide) attrsGood_nil (ok_cons (treeOk_node (by decide) attrsGood_nil (ok_single
      (treeOk_node (by decide) attrsGood_nil h.rich))) h.rest.ok)
  · have hn : t.name = [] := Classical.not_not.mp hn
    exact treeOk_node (by decide) attrsGood_nil (ok_cons (treeOk_node (by decide) attrsGood_nil
      (ok_single (strRefTree_ok U ((h.ref hn hs).safe (hf hn hs))))) h.rest.ok)
  · split
    · rename_i ts e
      exact ok_single (treeOk_node (by decide) attrsGood_nil (h.only ts e).ok)
    · exact ok_nil

theorem axisTree_ok {a : ChartAxis} (h : AxisReady U parses shown a) {t : Str} (ht : isName t = true) (i j : Nat) :
    treeOk (axisTree U t i j a) = true :=
  treeOk_node ht attrsGood_nil (ok_cons (valTree_ok (by decide) i) (ok_append (ok_append (ok_append h.1.pre.ok
    (chartTitleTrees_ok h.1.title h.2)) h.1.mid.ok) (ok_cons (valTree_ok (by decide) j) h.1.post.ok)))

theorem axisPair_ok {g : ChartGroup} {d : Bool} {ids : Nat × Nat} {x y : ChartAxis} (hx : AxisReady U parses shown x)
    (hy : AxisReady U parses shown y) :
    treeOk (axisPair U g d ids x y).1 = true ∧ treeOk (axisPair U g d ids x y).2 = true := by
  unfold axisPair
  refine ⟨axisTree_ok (parses := parses) (shown := shown) ?_ (by cases g <;> cases d <;> decide) _ _,
    axisTree_ok (parses := parses) (shown := shown) ?_ (by decide) _ _⟩
  · split; exact hy; exact hx
  · split; exact hx; exact hy

theorem ChartGood.second {c : Chart} (h : ChartGood U parses shown c) :
    AxisReady U parses shown c.body.x2Axis ∧ AxisReady U parses shown c.body.y2Axis := by
  refine ⟨⟨h.x2Axis, fun h1 h2 => ?_⟩, ⟨h.y2Axis, fun h1 h2 => ?_⟩⟩
  · rcases h.x2Title with h | h
    · exact absurd h1 h
    · exact absurd h h2
  · rcases h.y2Title with h | h
    · exact absurd h1 h
    · exact absurd h h2

theorem chartSpaceTree_ok {c : Chart} (h : ChartGood U parses shown c) (hf : ChartFilled shown c) :
    treeOk (chartSpaceTree U parses c) = true := by
  refine treeOk_node (by decide) ⟨by decide, by decide⟩ (ok_append h.spacePre.ok (ok_cons ?_ h.spacePost.ok))
  refine treeOk_node (by decide) attrsGood_nil (ok_append (ok_ite (fun _ => ok_single ?_) fun _ => ?_) (ok_cons ?_ h.chartTail.ok))
  · decide
  · exact chartTitleTrees_ok h.title hf.title
  · refine treeOk_node (by decide) attrsGood_nil (ok_append (ok_append (ok_append (ok_append (ok_append h.layout.ok
      (chartType_ok h.body hf.series _ _ _)) ?_) ?_) ?_) h.areaTail.ok)
    · cases hc : c.combined with
      | none => exact ok_nil
      | some b => exact chartType_ok (h.combined b hc) (hf.combined b hc) _ _ _
    · rw [primaryAxes_eq]
      have := fun d ids => axisPair_ok (g := c.body.group) (d := d) (ids := ids)
        (show AxisReady U parses shown c.body.xAxis from ⟨h.xAxis, hf.xAxis⟩) (show AxisReady U parses shown c.body.yAxis from ⟨h.yAxis, hf.yAxis⟩)
      exact ok_ite (fun _ => ok_nil) fun _ => ok_cons (this _ _).1 (ok_single (this _ _).2)
    · rw [secondaryAxes_eq]
      have := fun g d ids => axisPair_ok (g := g) (d := d) (ids := ids) h.second.1 h.second.2
      dsimp only
      exact ok_ite (fun _ => ok_ite (fun _ => ok_nil) fun _ => ok_ite
        (fun _ => ok_cons (this _ _ _).1 (ok_single (this _ _ _).2))
        (fun _ => ok_cons (this _ _ _).2 (ok_single (this _ _ _).1))) fun _ => ok_nil

/-! ### Filling the caches -/

theorem update_range (m : CacheMap) (r : ChartRef) : (r.update m).range = r.range := by
  unfold ChartRef.update
  split <;> rfl

theorem NameGood.update {t : ChartTitle} (h : NameGood U parses shown t) (m : CacheMap) :
    NameGood U parses shown (t.update m) := by
  refine ⟨h.name, fun h1 h2 => ?_⟩
  rw [show (t.update m).ref.range = t.ref.range from update_range m t.ref] at h2 ⊢
  exact h.ref h1 h2

theorem TitleGood.update {t : ChartTitle} (h : TitleGood U parses shown t) (m : CacheMap) :
    TitleGood U parses shown (t.update m) := by
  refine ⟨fun h1 h2 => ?_, h.rich, h.rest, h.only⟩
  rw [show (t.update m).ref.range = t.ref.range from update_range m t.ref] at h2 ⊢
  exact h.ref h1 h2

theorem ErrGood.update {e : ErrorBars} (h : ErrGood U parses shown e) (m : CacheMap) :
    ErrGood U parses shown (e.update m) := by
  refine ⟨fun hc => ?_, fun hc => ?_, h.head, h.plain, h.tail⟩
  · rw [show (e.update m).plus.range = e.plus.range from update_range m e.plus]; exact h.plus hc
  · rw [show (e.update m).minus.range = e.minus.range from update_range m e.minus]; exact h.minus hc

theorem SeriesGood.update {g : ChartGroup} {s : ChartSeries} (h : SeriesGood U parses shown g s) (m : CacheMap) :
    SeriesGood U parses shown g (s.update m) := by
  have hc : (s.update m).cats.range = s.cats.range := update_range m s.cats
  refine ⟨h.title.update m, ?_, ?_, ?_, ?_, ?_, h.pre, h.post⟩
  · rw [show (s.update m).values.range = s.values.range from update_range m s.values]; exact h.values
  · rw [hc]; exact h.cats
  · rw [hc]; exact h.scatter
  · intro e he
    obtain ⟨e', he', rfl⟩ := Option.map_eq_some_iff.mp he
    exact (h.yErr e' he').update m
  · intro e he
    obtain ⟨e', he', rfl⟩ := Option.map_eq_some_iff.mp he
    exact (h.xErr e' he').update m

theorem GroupGood.update {b : ChartBody} (h : GroupGood U parses shown b) (m : CacheMap) :
    GroupGood U parses shown (b.update m) := by
  refine ⟨h.head, h.tail, h.tail2, fun s hs => ?_⟩
  obtain ⟨s', hs', rfl⟩ := List.mem_map.mp hs
  exact (h.series s' hs').update m

theorem AxisGood.update {a : ChartAxis} (h : AxisGood U parses shown a) (m : CacheMap) :
    AxisGood U parses shown (a.update m) := ⟨h.title.update m, h.pre, h.mid, h.post⟩

theorem ChartGood.update {c : Chart} (h : ChartGood U parses shown c) (m : CacheMap) :
    ChartGood U parses shown (c.update m) := by
  refine ⟨h.body.update m, fun b hb => ?_, h.title.update m, h.xAxis.update m, h.yAxis.update m, h.x2Axis, h.y2Axis,
    h.x2Title, h.y2Title, h.spacePre, h.spacePost, h.layout, h.areaTail, h.chartTail⟩
  obtain ⟨b', hb', rfl⟩ := Option.map_eq_some_iff.mp hb
  exact (h.combined b' hb').update m

/-- The worksheets show `shown`. -/
def SheetsShow (cfg : Cfg) (dflt : Fmt) (sheets : List (Str × Sheet Fmt)) (shown : Text → Nat → Nat → Content) : Prop :=
  ∀ n s, sheets.lookup n = some s → Shows cfg dflt s (shown n)

theorem filled_update {sheets : List (Str × Sheet Fmt)} (hs : SheetsShow cfg dflt sheets shown)
    {ranges : List ChartRange} {m : CacheMap} (hm : CachesOf sheets ranges m) {u : RefUse} {r : ChartRef}
    (hr : r.range ∈ ranges) (h : RefGood U parses shown u r.range) : Filled shown (r.update m) := by
  obtain ⟨s, h1, h2⟩ := hm r.range hr ((hasData_iff _).mpr h.range.name)
  unfold Filled
  rw [update_range]
  unfold ChartRef.update
  rw [h2]
  dsimp only
  rw [getCacheData_eq (hs _ _ h1) r.range.d h.there, rangeContents, List.map_map]
  rfl

theorem series_filled {sheets : List (Str × Sheet Fmt)} (hs : SheetsShow cfg dflt sheets shown)
    {ranges : List ChartRange} {m : CacheMap} (hm : CachesOf sheets ranges m) {g : ChartGroup} {s : ChartSeries}
    (hr : ∀ r ∈ s.ranges, r ∈ ranges) (h : SeriesGood U parses shown g s) : SeriesFilled shown (s.update m) := by
  have hmem : ∀ e, e ∈ s.yErr ∨ e ∈ s.xErr → e.plus.range ∈ ranges ∧ e.minus.range ∈ ranges := by
    rintro e (he | he)
    · exact ⟨hr _ (by simp [ChartSeries.ranges, ErrorBars.ranges, Option.mem_def.mp he]),
        hr _ (by simp [ChartSeries.ranges, ErrorBars.ranges, Option.mem_def.mp he])⟩
    · exact ⟨hr _ (by simp [ChartSeries.ranges, ErrorBars.ranges, Option.mem_def.mp he]),
        hr _ (by simp [ChartSeries.ranges, ErrorBars.ranges, Option.mem_def.mp he])⟩
  refine ⟨fun h1 h2 => ?_, ?_, fun h2 => ?_, ?_, ?_⟩
  · rw [show (s.update m).title.ref.range = s.title.ref.range from update_range m s.title.ref] at h2
    exact filled_update hs hm (hr _ (by simp [ChartSeries.ranges])) (h.title.ref h1 h2)
  · exact filled_update hs hm (hr _ (by simp [ChartSeries.ranges])) h.values
  · rw [show (s.update m).cats.range = s.cats.range from update_range m s.cats] at h2
    exact filled_update hs hm (hr _ (by simp [ChartSeries.ranges])) (h.cats h2)
  · intro e he hc
    obtain ⟨e', he', rfl⟩ := Option.map_eq_some_iff.mp he
    have := hmem e' (.inl he')
    exact ⟨filled_update hs hm this.1 ((h.yErr e' he').plus hc), filled_update hs hm this.2 ((h.yErr e' he').minus hc)⟩
  · intro e he hc
    obtain ⟨e', he', rfl⟩ := Option.map_eq_some_iff.mp he
    have := hmem e' (.inr he')
    exact ⟨filled_update hs hm this.1 ((h.xErr e' he').plus hc), filled_update hs hm this.2 ((h.xErr e' he').minus hc)⟩

theorem title_filled {sheets : List (Str × Sheet Fmt)} (hs : SheetsShow cfg dflt sheets shown)
    {ranges : List ChartRange} {m : CacheMap} (hm : CachesOf sheets ranges m) {t : ChartTitle}
    (hr : t.ref.range ∈ ranges) (h : TitleGood U parses shown t) (h1 : t.name = []) (h2 : (t.update m).ref.range.sheet ≠ []) :
    Filled shown (t.update m).ref := by
  rw [show (t.update m).ref.range = t.ref.range from update_range m t.ref] at h2
  exact filled_update hs hm hr (h.ref h1 h2)

theorem chart_filled {sheets : List (Str × Sheet Fmt)} (hs : SheetsShow cfg dflt sheets shown)
    {ranges : List ChartRange} {m : CacheMap} (hm : CachesOf sheets ranges m) {c : Chart}
    (hr : ∀ r ∈ c.ranges, r ∈ ranges) (h : ChartGood U parses shown c) : ChartFilled shown (c.update m) := by
  have hb : ∀ r ∈ c.body.ranges, r ∈ ranges := fun r hr' => hr r (List.mem_append_left _ hr')
  refine ⟨fun s hs' => ?_, fun b hb' s hs' => ?_, ?_, ?_, ?_⟩
  · obtain ⟨s', h', rfl⟩ := List.mem_map.mp hs'
    refine series_filled hs hm (fun r hr' => hb r ?_) (h.body.series s' h')
    exact List.mem_append_right _ (List.mem_flatMap.mpr ⟨s', h', hr'⟩)
  · obtain ⟨b', hb'', rfl⟩ := Option.map_eq_some_iff.mp hb'
    obtain ⟨s', h', rfl⟩ := List.mem_map.mp hs'
    refine series_filled hs hm (fun r hr' => hr r ?_) ((h.combined b' hb'').series s' h')
    refine List.mem_append_right _ ?_
    rw [hb'']
    exact List.mem_append_right _ (List.mem_flatMap.mpr ⟨s', h', hr'⟩)
  · exact title_filled hs hm (hb _ (by simp [ChartBody.ranges])) h.title
  · exact title_filled hs hm (hb _ (by simp [ChartBody.ranges])) h.xAxis.title
  · exact title_filled hs hm (hb _ (by simp [ChartBody.ranges])) h.yAxis.title

/-! ### The meaning of a chart does not depend on the caches -/

theorem titleMeant_update (m : CacheMap) (t : ChartTitle) : titleMeant shown (t.update m) = titleMeant shown t := by
  unfold titleMeant
  rw [show (t.update m).ref.range = t.ref.range from update_range m t.ref]
  rfl

theorem errMeant_update (m : CacheMap) (e : ErrorBars) : errMeant shown (e.update m) = errMeant shown e := by
  unfold errMeant
  rw [show (e.update m).plus.range = e.plus.range from update_range m e.plus,
    show (e.update m).minus.range = e.minus.range from update_range m e.minus]
  rfl

theorem seriesMeant_update (m : CacheMap) (g : ChartGroup) (i : Nat) (s : ChartSeries) :
    seriesMeant shown g i (s.update m) = seriesMeant shown g i s := by
  have e : ∀ o : Option ErrorBars, (o.map (·.update m)).toList.map (errMeant shown) = o.toList.map (errMeant shown) := by
    intro o
    cases o with
    | none => rfl
    | some x => simp [errMeant_update]
  unfold seriesMeant nameMeant
  rw [show (s.update m).title.ref.range = s.title.ref.range from update_range m s.title.ref,
    show (s.update m).values.range = s.values.range from update_range m s.values,
    show (s.update m).cats.range = s.cats.range from update_range m s.cats]
  congr 1
  rw [List.map_append, List.map_append]
  congr 1
  · split
    · exact e s.xErr
    · rfl
  · split
    · rfl
    · exact e s.yErr

theorem zipIdx_map_eq {α β : Type} (f : α → β) (l : List α) (i : Nat) :
    (l.map f).zipIdx i = (l.zipIdx i).map fun p => (f p.1, p.2) := by
  induction l generalizing i with
  | nil => rfl
  | cons a l ih => rw [List.map_cons, List.zipIdx_cons, List.zipIdx_cons, List.map_cons, ih]

theorem seriesListMeant_update (m : CacheMap) (g : ChartGroup) (i : Nat) (ss : List ChartSeries) :
    seriesListMeant shown g i (ss.map (·.update m)) = seriesListMeant shown g i ss := by
  unfold seriesListMeant
  rw [zipIdx_map_eq, List.map_map]
  refine List.map_congr_left fun p _ => ?_
  exact seriesMeant_update m g _ p.1

theorem groupMeant_update (m : CacheMap) (g : ChartGroup) (ids : Nat × Nat) (i : Nat) (ss : List ChartSeries) :
    groupMeant shown g ids i (ss.map (·.update m)) = groupMeant shown g ids i ss := by
  unfold groupMeant
  rw [seriesListMeant_update]
  simp only [List.map_eq_nil_iff]

theorem groupsMeant_update (m : CacheMap) (ids ids2 : Nat × Nat) (i : Nat) (b : ChartBody) :
    groupsMeant shown ids ids2 i (b.update m) = groupsMeant shown ids ids2 i b := by
  unfold groupsMeant
  have e1 : (b.update m).series = b.series.map (·.update m) := rfl
  have e2 : (b.update m).group = b.group := rfl
  rw [e1, e2, List.filter_map, List.filter_map]
  dsimp only
  rw [groupMeant_update, groupMeant_update, List.length_map]
  rfl

theorem chartMeant_update (m : CacheMap) (c : Chart) : chartMeant shown (c.update m) = chartMeant shown c := by
  have hs : secondUsed (c.update m) = secondUsed c := by
    unfold secondUsed
    have e1 : ∀ ss : List ChartSeries, (ss.map (·.update m)).any (fun s => s.secondary) = ss.any fun s => s.secondary := by
      intro ss
      rw [List.any_map]
      rfl
    rw [show (c.update m).body.series = c.body.series.map (·.update m) from rfl, e1,
      show (c.update m).combined = c.combined.map (·.update m) from rfl]
    cases c.combined with
    | none => rfl
    | some k =>
      simp only [Option.map_some, Option.any_some]
      rw [show (k.update m).series = k.series.map (·.update m) from rfl, e1]
  have hg : secondGroup (c.update m) = secondGroup c := by
    unfold secondGroup
    rw [show (c.update m).combined = c.combined.map (·.update m) from rfl]
    cases c.combined <;> rfl
  have h1 : allGroupsMeant shown (c.update m) = allGroupsMeant shown c := by
    unfold allGroupsMeant
    rw [show (c.update m).body = c.body.update m from rfl, show (c.update m).axisIds = c.axisIds from rfl,
      show (c.update m).axis2Ids = c.axis2Ids from rfl, groupsMeant_update,
      show (c.body.update m).series.length = c.body.series.length from List.length_map _,
      show (c.update m).combined = c.combined.map (·.update m) from rfl]
    cases c.combined with
    | none => rfl
    | some k => simp only [Option.map_some, groupsMeant_update]
  have h2 : primaryAxesMeant shown (c.update m) = primaryAxesMeant shown c := by
    unfold primaryAxesMeant
    dsimp only
    rw [show (c.update m).body.yAxis.title = c.body.yAxis.title.update m from rfl,
      show (c.update m).body.xAxis.title = c.body.xAxis.title.update m from rfl]
    unfold axisPairMeant
    dsimp only
    rw [show (c.update m).body.group = c.body.group from rfl]
    by_cases hb : c.body.group = .bar
    · simp only [hb, if_true, titleMeant_update]; rfl
    · simp only [hb, if_false, titleMeant_update]; rfl
  have h3 : secondaryAxesMeant shown (c.update m) = secondaryAxesMeant shown c := by
    unfold secondaryAxesMeant
    dsimp only
    rw [hs, hg]
    have hc : (c.update m).combined = none ↔ c.combined = none := by
      rw [show (c.update m).combined = c.combined.map (·.update m) from rfl, Option.map_eq_none_iff]
    simp only [hc]
    rfl
  unfold chartMeant
  rw [h1, h2, h3, show (c.update m).body.title = c.body.title.update m from rfl, titleMeant_update]
  rfl

/-! ### C34 -/

/-- What a reader finds in the cells of the saved worksheets. -/
def shownOn (sheets : List (Str × Sheet Fmt)) (sst : SST) (n : Text) (r c : Nat) : Content :=
  match sheets.lookup n with
  | some s => readContent (s.saveRows sst) r c
  | none => .blank

/-- Worksheets that are the result of some history of calls. -/
def Made (lower : Str → Str) (cfg : Cfg) (merge : Fmt → Fmt → Fmt) (dflt : Fmt) (sheets : List (Str × Sheet Fmt)) : Prop :=
  ∀ p ∈ sheets, ∃ ops f, ({ tsheet := TSheet.new cfg merge dflt } : FSheet Fmt).run lower ops = some f ∧
    p.2 = f.tsheet.sheet

theorem Made.shows {lower : Str → Str} (hstd : cfg.isStandard) {merge : Fmt → Fmt → Fmt}
    {sheets : List (Str × Sheet Fmt)} (h : Made lower cfg merge dflt sheets) (sst : SST) :
    SheetsShow cfg dflt sheets (shownOn sheets sst) := by
  intro n s hl
  have hm : (n, s) ∈ sheets := by
    clear h
    induction sheets with
    | nil => cases hl
    | cons p r ih =>
      obtain ⟨k, x⟩ := p
      rw [List.lookup_cons] at hl
      by_cases e : n = k
      · subst e
        simp only [beq_self_eq_true, Option.some.injEq] at hl
        subst hl
        exact List.mem_cons_self
      · simp only [beq_eq_false_iff_ne.mpr e] at hl
        exact List.mem_cons_of_mem _ (ih hl)
  obtain ⟨ops, f, hf, he⟩ := h _ hm
  obtain ⟨ct, hs⟩ := ((FInv.new (dflt := dflt) hstd merge).run ops hf).shows
  have he : s = f.tsheet.sheet := he
  rw [← he] at hs
  refine hs.congr fun r c => ?_
  unfold shownOn
  rw [hl]
  exact hs.reads sst r c

/-- C34: when charts are saved, a reader of the chart part finds the title, the series in their order with names,
categories, values and error bars, each with the right worksheet and range, and for each range the values that the
cells of the saved worksheet show, in the order of the cells and at their positions. Missing for the full property:
ranges of several columns with a row that has no cells, texts that look like numbers among values, and titles of
secondary axes (see the counterexamples), and custom data labels. -/
theorem C34_chart_cells_partial (U : Unicode) (hU : U.Sane) (parses : Str → Bool) (lower : Str → Str) (cfg : Cfg)
    (hstd : cfg.isStandard) (merge : Fmt → Fmt → Fmt) (dflt : Fmt) (sheets : List (Str × Sheet Fmt))
    (hm : Made lower cfg merge dflt sheets) (charts out : List Chart) (h : prepareCaches sheets charts = some out)
    (sst : SST) (i : Nat) (c : Chart) (hi : charts[i]? = some c)
    (hg : ChartGood U parses (shownOn sheets sst) c) :
    ∃ c' node, out[i]? = some c' ∧ parseDoc (writePart (chartSpaceTree U parses c')) = some node ∧
      readChart node = some (chartMeant (shownOn sheets sst) c) := by
  obtain ⟨m, rfl, hc⟩ := prepareCaches_some h
  have hf : ChartFilled (shownOn sheets sst) (c.update m) := by
    refine chart_filled (hm.shows hstd sst) hc (fun r hr => ?_) hg
    exact List.mem_flatMap.mpr ⟨c, List.mem_of_getElem? hi, hr⟩
  refine ⟨c.update m, _, by rw [List.getElem?_map, hi]; rfl,
    C07_part_roundtrip _ (chartSpaceTree_ok (hg.update m) hf), ?_⟩
  rw [readChart_eq hU (hg.update m) hf, chartMeant_update]

/-! ### C54 -/

theorem zipIdx_snd {α : Type} (l : List α) (i : Nat) : (l.zipIdx i).map (·.2) = List.range' i l.length := by
  induction l generalizing i with
  | nil => rfl
  | cons a l ih => rw [List.zipIdx_cons, List.map_cons, ih]; rfl

theorem seriesList_idx (g : ChartGroup) (i : Nat) (ss : List ChartSeries) :
    (seriesListMeant shown g i ss).map (·.idx) = List.range' i ss.length ∧
    (seriesListMeant shown g i ss).map (·.order) = List.range' i ss.length := by
  have : ss.zipIdx.map (fun p => i + p.2) = List.range' i ss.length := by
    rw [← zipIdx_snd ss i, zipIdx_shift ss i, List.map_map]
    rfl
  unfold seriesListMeant
  rw [List.map_map, List.map_map]
  exact ⟨this, this⟩

/-- The series of chart groups in the order of the document. -/
def seriesOf (gs : List GroupSeen) : List SeriesSeen := gs.flatMap (·.series)

theorem groupMeant_idx (g : ChartGroup) (ids : Nat × Nat) (i : Nat) (ss : List ChartSeries) :
    (seriesOf (groupMeant shown g ids i ss)).map (·.idx) = List.range' i ss.length ∧
    (seriesOf (groupMeant shown g ids i ss)).map (·.order) = List.range' i ss.length := by
  unfold groupMeant
  split
  · rename_i h; rw [h]; exact ⟨rfl, rfl⟩
  · simp only [seriesOf, List.flatMap_cons, List.flatMap_nil, List.append_nil]
    exact seriesList_idx g i ss

theorem filter_lengths (ss : List ChartSeries) :
    (ss.filter fun s => !s.secondary).length + (ss.filter fun s => s.secondary).length = ss.length := by
  induction ss with
  | nil => rfl
  | cons s ss ih =>
    cases hs : s.secondary <;> simp only [List.filter_cons, hs, Bool.not_false, Bool.not_true, if_true,
      Bool.false_eq_true, if_false, List.length_cons] <;> omega

theorem groupsMeant_idx (ids ids2 : Nat × Nat) (i : Nat) (b : ChartBody) :
    (seriesOf (groupsMeant shown ids ids2 i b)).map (·.idx) = List.range' i b.series.length ∧
    (seriesOf (groupsMeant shown ids ids2 i b)).map (·.order) = List.range' i b.series.length := by
  unfold groupsMeant
  have hl := filter_lengths b.series
  have h1 := groupMeant_idx (shown := shown) b.group ids i (b.series.filter fun s => !s.secondary)
  have h2 := groupMeant_idx (shown := shown) b.group ids2 (i + (b.series.filter fun s => !s.secondary).length)
    (b.series.filter fun s => s.secondary)
  have ha : ∀ x y, seriesOf (x ++ y) = seriesOf x ++ seriesOf y := fun x y => List.flatMap_append
  dsimp only
  rw [ha, List.map_append, List.map_append, h1.1, h1.2, h2.1, h2.2, List.range'_append_1, hl]
  exact ⟨rfl, rfl⟩

/-- The number of series of a chart and its combined chart. -/
def Chart.seriesCount (c : Chart) : Nat :=
  c.body.series.length + match c.combined with
    | some b => b.series.length
    | none => 0

theorem chartMeant_idx (c : Chart) :
    (seriesOf (chartMeant shown c).groups).map (·.idx) = List.range c.seriesCount ∧
    (seriesOf (chartMeant shown c).groups).map (·.order) = List.range c.seriesCount := by
  have h1 := groupsMeant_idx (shown := shown) c.axisIds c.axis2Ids 0 c.body
  have ha : ∀ x y, seriesOf (x ++ y) = seriesOf x ++ seriesOf y := fun x y => List.flatMap_append
  unfold chartMeant allGroupsMeant Chart.seriesCount
  dsimp only
  rw [ha, List.map_append, List.map_append, h1.1, h1.2, List.range_eq_range']
  cases c.combined with
  | none => simp [seriesOf]
  | some b =>
    have h2 := groupsMeant_idx (shown := shown) c.axisIds c.axis2Ids c.body.series.length b
    dsimp only
    rw [h2.1, h2.2]
    have := List.range'_append_1 (s := 0) (m := c.body.series.length) (n := b.series.length)
    rw [Nat.zero_add] at this
    exact ⟨this, this⟩

/-- C54, the series: they are numbered 0, 1, 2 and so on in the order of the document, over the primary and secondary
axes and over the combined chart, so no two of them have the same number. -/
theorem C54_series_numbers (U : Unicode) (hU : U.Sane) (parses : Str → Bool) (lower : Str → Str) (cfg : Cfg)
    (hstd : cfg.isStandard) (merge : Fmt → Fmt → Fmt) (dflt : Fmt) (sheets : List (Str × Sheet Fmt))
    (hm : Made lower cfg merge dflt sheets) (charts out : List Chart) (h : prepareCaches sheets charts = some out)
    (sst : SST) (i : Nat) (c : Chart) (hi : charts[i]? = some c)
    (hg : ChartGood U parses (shownOn sheets sst) c) :
    ∃ c' seen, out[i]? = some c' ∧ (parseDoc (writePart (chartSpaceTree U parses c'))).bind readChart = some seen ∧
      (seriesOf seen.groups).map (·.idx) = List.range c.seriesCount ∧
      (seriesOf seen.groups).map (·.order) = List.range c.seriesCount := by
  obtain ⟨c', node, h1, h2, h3⟩ := C34_chart_cells_partial U hU parses lower cfg hstd merge dflt sheets hm charts out h
    sst i c hi hg
  exact ⟨c', _, h1, by rw [h2]; exact h3, chartMeant_idx c⟩

/-- The axes of a chart fit together: every axis a group is drawn on is there, the axes have different ids, and each
axis crosses one that crosses it. -/
structure AxesFit (s : ChartSeen) : Prop where
  there : ∀ g ∈ s.groups, ∀ a ∈ g.axes, ∃ x ∈ s.axes, x.id = a
  distinct : (s.axes.map (·.id)).Nodup
  cross : ∀ x ∈ s.axes, ∃ y ∈ s.axes, x.cross = y.id ∧ y.cross = x.id ∧ y.id ≠ x.id

/-- Charts without axes are not combined with charts that need them (see `C54_pie_column_counterexample`). -/
structure MixSuits (c : Chart) : Prop where
  primary : c.body.group = .pie ∨ c.body.group = .doughnut →
    ∀ b ∈ c.combined, (b.group = .pie ∨ b.group = .doughnut) ∨ ∀ s ∈ b.series, s.secondary = true
  secondary : ∀ b ∈ c.combined, b.group = .pie ∨ b.group = .doughnut →
    (c.body.group = .pie ∨ c.body.group = .doughnut) ∨ ∀ s ∈ c.body.series, s.secondary = false

theorem groupMeant_axes {g : ChartGroup} {ids : Nat × Nat} {i : Nat} {ss : List ChartSeries} {x : GroupSeen}
    (h : x ∈ groupMeant shown g ids i ss) {a : Nat} (ha : a ∈ x.axes) :
    ¬ (g = .pie ∨ g = .doughnut) ∧ ss ≠ [] ∧ (a = ids.1 ∨ a = ids.2) := by
  unfold groupMeant at h
  split at h
  · simp at h
  · rename_i hs
    rw [List.mem_singleton] at h
    subst h
    dsimp only at ha
    split at ha
    · simp at ha
    · rename_i hg
      simp only [List.mem_cons, List.not_mem_nil, or_false] at ha
      exact ⟨hg, hs, ha⟩

/-- The axis a group is drawn on: a primary axis of a chart with axes, or a secondary axis of one with a series there. -/
theorem groupsMeant_axes {ids ids2 : Nat × Nat} {i : Nat} {b : ChartBody} {x : GroupSeen}
    (h : x ∈ groupsMeant shown ids ids2 i b) {a : Nat} (ha : a ∈ x.axes) :
    ¬ (b.group = .pie ∨ b.group = .doughnut) ∧
      (((a = ids.1 ∨ a = ids.2) ∧ ∃ s ∈ b.series, s.secondary = false) ∨
       ((a = ids2.1 ∨ a = ids2.2) ∧ ∃ s ∈ b.series, s.secondary = true)) := by
  unfold groupsMeant at h
  rcases List.mem_append.mp h with h | h
  · obtain ⟨h1, h2, h3⟩ := groupMeant_axes h ha
    obtain ⟨s, hs⟩ := List.exists_mem_of_ne_nil _ h2
    rw [List.mem_filter] at hs
    exact ⟨h1, .inl ⟨h3, s, hs.1, by simpa using hs.2⟩⟩
  · obtain ⟨h1, h2, h3⟩ := groupMeant_axes h ha
    obtain ⟨s, hs⟩ := List.exists_mem_of_ne_nil _ h2
    rw [List.mem_filter] at hs
    exact ⟨h1, .inr ⟨h3, s, hs.1, hs.2⟩⟩

theorem primary_there {c : Chart} (h : ¬ (c.body.group = .pie ∨ c.body.group = .doughnut)) {a : Nat}
    (ha : a = c.axisIds.1 ∨ a = c.axisIds.2) : ∃ x ∈ primaryAxesMeant shown c, x.id = a := by
  unfold primaryAxesMeant axisPairMeant
  dsimp only
  rw [if_neg h]
  rcases ha with rfl | rfl
  · exact ⟨_, List.mem_cons_self, rfl⟩
  · exact ⟨_, List.mem_cons_of_mem _ List.mem_cons_self, rfl⟩

theorem secondary_there {c : Chart} (h : ¬ (secondGroup c = .pie ∨ secondGroup c = .doughnut)) (hu : secondUsed c = true)
    {a : Nat} (ha : a = c.axis2Ids.1 ∨ a = c.axis2Ids.2) : ∃ x ∈ secondaryAxesMeant shown c, x.id = a := by
  unfold secondaryAxesMeant axisPairMeant
  dsimp only
  rw [if_neg (show ¬ (secondGroup c = .pie ∨ secondGroup c = .doughnut ∨ secondUsed c = false) by grind)]
  split
  · rcases ha with rfl | rfl
    · exact ⟨_, List.mem_cons_self, rfl⟩
    · exact ⟨_, List.mem_cons_of_mem _ List.mem_cons_self, rfl⟩
  · rcases ha with rfl | rfl
    · exact ⟨_, List.mem_cons_of_mem _ List.mem_cons_self, rfl⟩
    · exact ⟨_, List.mem_cons_self, rfl⟩

/-- A pair of axes, in one order or the other, or no axes. -/
def PairOf (ids : Nat × Nat) (as : List AxisSeen) : Prop :=
  as = [] ∨ ∃ x y, x.id = ids.1 ∧ x.cross = ids.2 ∧ y.id = ids.2 ∧ y.cross = ids.1 ∧ (as = [x, y] ∨ as = [y, x])

theorem primary_pair (c : Chart) : PairOf c.axisIds (primaryAxesMeant shown c) := by
  unfold primaryAxesMeant axisPairMeant
  dsimp only
  split
  · exact .inl rfl
  · exact .inr ⟨_, _, rfl, rfl, rfl, rfl, .inl rfl⟩

theorem secondary_pair (c : Chart) : PairOf c.axis2Ids (secondaryAxesMeant shown c) := by
  unfold secondaryAxesMeant axisPairMeant
  dsimp only
  split
  · exact .inl rfl
  · split
    · exact .inr ⟨_, _, rfl, rfl, rfl, rfl, .inl rfl⟩
    · exact .inr ⟨_, _, rfl, rfl, rfl, rfl, .inr rfl⟩

theorem PairOf.ids {ids : Nat × Nat} {as : List AxisSeen} (h : PairOf ids as) (hne : ids.1 ≠ ids.2) :
    (as.map (·.id)).Nodup ∧ (∀ x ∈ as, x.id = ids.1 ∨ x.id = ids.2) ∧
    ∀ x ∈ as, ∃ y ∈ as, x.cross = y.id ∧ y.cross = x.id ∧ y.id ≠ x.id := by
  rcases h with rfl | ⟨x, y, h1, h2, h3, h4, rfl | rfl⟩
  · simp
  · simp only [List.map_cons, List.map_nil, List.nodup_cons, List.mem_cons, List.not_mem_nil, or_false, not_false_eq_true,
      List.nodup_nil, and_true, h1, h3]
    refine ⟨hne, ?_, ?_⟩
    · rintro z (rfl | rfl)
      · exact .inl h1
      · exact .inr h3
    · rintro z (rfl | rfl)
      · exact ⟨y, .inr rfl, by rw [h2, h3], by rw [h4, h1], by rw [h1, h3]; exact hne.symm⟩
      · exact ⟨x, .inl rfl, by rw [h4, h1], by rw [h2, h3], by rw [h1, h3]; exact hne⟩
  · simp only [List.map_cons, List.map_nil, List.nodup_cons, List.mem_cons, List.not_mem_nil, or_false, not_false_eq_true,
      List.nodup_nil, and_true, h1, h3]
    refine ⟨hne.symm, ?_, ?_⟩
    · rintro z (rfl | rfl)
      · exact .inr h3
      · exact .inl h1
    · rintro z (rfl | rfl)
      · exact ⟨x, .inr rfl, by rw [h4, h1], by rw [h2, h3], by rw [h1, h3]; exact hne⟩
      · exact ⟨y, .inl rfl, by rw [h2, h3], by rw [h4, h1], by rw [h1, h3]; exact hne.symm⟩

theorem axesFit_of {c : Chart} (hx : MixSuits c) (hd : [c.axisIds.1, c.axisIds.2, c.axis2Ids.1, c.axis2Ids.2].Nodup) :
    AxesFit (chartMeant shown c) := by
  simp only [List.nodup_cons, List.mem_cons, List.not_mem_nil, or_false, not_or, not_false_eq_true, List.nodup_nil,
    and_true] at hd
  obtain ⟨⟨d1, d2, d3⟩, ⟨d4, d5⟩, d6⟩ := hd
  have p1 := (primary_pair (shown := shown) c).ids d1
  have p2 := (secondary_pair (shown := shown) c).ids d6
  have used : ∀ s, s.secondary = true → s ∈ c.body.series → secondUsed c = true := by
    intro s hs hm
    unfold secondUsed
    rw [Bool.or_eq_true, List.any_eq_true]
    exact .inl ⟨s, hm, hs⟩
  have used' : ∀ b ∈ c.combined, ∀ s, s.secondary = true → s ∈ b.series → secondUsed c = true := by
    intro b hb s hs hm
    unfold secondUsed
    rw [Option.mem_def.mp hb, Bool.or_eq_true, Option.any_some, List.any_eq_true, List.any_eq_true]
    exact .inr ⟨s, hm, hs⟩
  constructor
  · intro g hg a ha
    have key : (∃ x ∈ primaryAxesMeant shown c, x.id = a) ∨ (∃ x ∈ secondaryAxesMeant shown c, x.id = a) := by
      rcases List.mem_append.mp hg with hg | hg
      · obtain ⟨h1, h2⟩ := groupsMeant_axes hg ha
        rcases h2 with ⟨h2, _⟩ | ⟨h2, s, hs, hs'⟩
        · exact .inl (primary_there h1 h2)
        · refine .inr (secondary_there ?_ (used s hs' hs) h2)
          unfold secondGroup
          cases hc : c.combined with
          | none => exact h1
          | some b =>
            intro hf
            rcases hx.secondary b hc hf with h | h
            · exact h1 h
            · rw [h s hs] at hs'; cases hs'
      · cases hc : c.combined with
        | none => rw [hc] at hg; simp at hg
        | some b =>
          rw [hc] at hg
          obtain ⟨h1, h2⟩ := groupsMeant_axes hg ha
          rcases h2 with ⟨h2, s, hs, hs'⟩ | ⟨h2, s, hs, hs'⟩
          · refine .inl (primary_there (fun hf => ?_) h2)
            rcases hx.primary hf b hc with h | h
            · exact h1 h
            · rw [h s hs] at hs'; cases hs'
          · refine .inr (secondary_there ?_ (used' b hc s hs' hs) h2)
            unfold secondGroup
            rw [hc]
            exact h1
    rcases key with ⟨x, hx, e⟩ | ⟨x, hx, e⟩
    · exact ⟨x, List.mem_append_left _ hx, e⟩
    · exact ⟨x, List.mem_append_right _ hx, e⟩
  · show ((primaryAxesMeant shown c ++ secondaryAxesMeant shown c).map (·.id)).Nodup
    rw [List.map_append, List.nodup_append]
    refine ⟨p1.1, p2.1, ?_⟩
    intro a ha b hb
    obtain ⟨x, hx, rfl⟩ := List.mem_map.mp ha
    obtain ⟨y, hy, rfl⟩ := List.mem_map.mp hb
    have hx := p1.2.1 x hx
    have hy := p2.2.1 y hy
    grind
  · intro x hx
    rcases List.mem_append.mp hx with hx | hx
    · obtain ⟨y, hy, e⟩ := p1.2.2 x hx
      exact ⟨y, List.mem_append_left _ hy, e⟩
    · obtain ⟨y, hy, e⟩ := p2.2.2 x hx
      exact ⟨y, List.mem_append_right _ hy, e⟩

theorem addAxisIds_distinct (c : Chart) (n : Nat) (h : c.axisIds.1 = 0) :
    [(c.addAxisIds n).axisIds.1, (c.addAxisIds n).axisIds.2, (c.addAxisIds n).axis2Ids.1,
      (c.addAxisIds n).axis2Ids.2].Nodup := by
  unfold Chart.addAxisIds
  rw [if_neg (fun e => e h)]
  cases c.combined <;> simp <;> omega

/-- C54, the axes: in the part of a chart whose axis ids were chosen by the save, every axis that a chart group is
drawn on is there, no two axes have the same id, and the axes cross in pairs. Missing for the full property: a pie
or doughnut chart combined with a chart that has axes (see the counterexample). -/
theorem C54_axes_partial (U : Unicode) (hU : U.Sane) (parses : Str → Bool) (lower : Str → Str) (cfg : Cfg)
    (hstd : cfg.isStandard) (merge : Fmt → Fmt → Fmt) (dflt : Fmt) (sheets : List (Str × Sheet Fmt))
    (hm : Made lower cfg merge dflt sheets) (charts out : List Chart) (h : prepareCaches sheets charts = some out)
    (sst : SST) (i : Nat) (c c0 : Chart) (chartId : Nat) (hi : charts[i]? = some c) (hid : c0.axisIds.1 = 0)
    (hc : c = c0.addAxisIds chartId) (hx : MixSuits c)
    (hg : ChartGood U parses (shownOn sheets sst) c) :
    ∃ c' seen, out[i]? = some c' ∧ (parseDoc (writePart (chartSpaceTree U parses c'))).bind readChart = some seen ∧
      AxesFit seen := by
  obtain ⟨c', node, h1, h2, h3⟩ := C34_chart_cells_partial U hU parses lower cfg hstd merge dflt sheets hm charts out h
    sst i c hi hg
  exact ⟨c', _, h1, by rw [h2]; exact h3, axesFit_of hx (by rw [hc]; exact addAxisIds_distinct c0 chartId hid)⟩

end Verif
