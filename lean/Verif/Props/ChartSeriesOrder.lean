import Verif.Props.ChartOrder
import Verif.Props.ChartSeriesDemo
/-!
C78: the elements of series are in the order of the schema.
-/
namespace Verif
open Spec BMap

variable {U : Unicode} {parses : Str → Bool} {shown : Text → Nat → Nat → Content}

/-- Sections of which only some are there. -/
theorem trees_keep {order keep rep : List Text} {secs : List (Str × List Tree)} (h : SecTags secs) (hk : ∀ t ∈ keep, t ∈ order)
    (hin : ∀ p ∈ secs, p.1 ∉ keep → p.2 = []) (hord : ((secs.map Prod.fst).filter fun t => t ∈ keep).Pairwise fun a b => order.idxOf a < order.idxOf b)
    (hone : ∀ p ∈ secs, p.2.length ≤ 1 ∨ p.1 ∈ rep) : InOrder order rep (tagsOf (toNodes (secTrees secs))) := by
  have e : secTrees secs = secTrees (secs.filter fun p => p.1 ∈ keep) := by
    clear h hord hone
    unfold secTrees
    induction secs with
    | nil => rfl
    | cons p l ih =>
      have ih' := ih fun q hq => hin q (List.mem_cons_of_mem _ hq)
      by_cases e : p.1 ∈ keep
      · rw [List.filter_cons_of_pos (by simpa using e), List.flatMap_cons, List.flatMap_cons, ih']
      · rw [List.filter_cons_of_neg (by simpa using e), List.flatMap_cons, hin p List.mem_cons_self e, List.nil_append, ih']
  rw [e]
  refine trees_order (fun p hp => h p (List.mem_filter.mp hp).1) ?_ ?_ (fun p hp => hone p (List.mem_filter.mp hp).1)
  · intro p hp hn
    exact absurd (hk _ (of_decide_eq_true (List.mem_filter.mp hp).2)) hn
  · rw [show (secs.filter fun p => p.1 ∈ keep).map Prod.fst = (secs.map Prod.fst).filter fun t => t ∈ keep by rw [List.filter_map]; rfl]
    exact hord.sublist List.filter_sublist

/-- The elements of a series that are there for a group. -/
def seriesKeep (g : ChartGroup) : List Text :=
  ["c:idx".toList, "c:order".toList, "c:tx".toList, "c:spPr".toList, "c:dPt".toList, "c:dLbls".toList] ++
  (match g with
    | .bar | .column => ["c:invertIfNegative".toList, "c:trendline".toList, "c:errBars".toList, "c:extLst".toList]
    | .area => ["c:trendline".toList, "c:errBars".toList]
    | .line | .stock => ["c:marker".toList, "c:trendline".toList, "c:errBars".toList, "c:smooth".toList]
    | .radar => ["c:marker".toList]
    | .scatter => ["c:trendline".toList, "c:errBars".toList, "c:smooth".toList, "c:xVal".toList, "c:yVal".toList]
    | _ => []) ++ (if g = .scatter then [] else ["c:cat".toList, "c:val".toList])

theorem keep_in (g : ChartGroup) : ∀ t ∈ seriesKeep g, t ∈ seriesOrder g.tag := by cases g <;> decide

theorem said_none {κ α : Type} {f : κ → Option (Option α)} {calls : List κ} (h : lastSaid f none calls = none)
    (hf : ∀ c, f c ≠ some none) (d : Option α) : lastSaid f d calls = d := by
  unfold lastSaid at *
  cases e : calls.reverse.findSome? f with
  | none => rfl
  | some x =>
    rw [e] at h
    obtain ⟨c, _, hc⟩ := List.exists_of_findSome?_eq_some e
    have : x = none := h
    exact absurd (this ▸ hc) (hf c)

theorem no_invert {calls : List SeriesCall} (h : lastSaid saysInvert false calls = false) : lastSaid saysInvertColor none calls = none := by
  unfold lastSaid at *
  cases e : calls.reverse.findSome? saysInvert with
  | some x =>
    rw [e] at h
    obtain ⟨c, _, hc⟩ := List.exists_of_findSome?_eq_some e
    have : x = false := h
    subst this
    cases c <;> simp [saysInvert] at hc
  | none =>
    rw [List.findSome?_eq_none_iff] at e
    have : calls.reverse.findSome? saysInvertColor = none := by
      rw [List.findSome?_eq_none_iff]
      intro c hc
      have := e c hc
      cases c <;> simp_all [saysInvert, saysInvertColor]
    rw [this]; rfl

theorem length_marker (m : Option CMarker) : (markerTrees m).length ≤ 1 := by
  unfold markerTrees
  split
  · split <;> simp
  · simp

theorem length_label (g : ChartGroup) (n : Nat) (l : Option CLabel) (c : List CLabel) : (labelTrees g n l c).length ≤ 1 := by
  unfold labelTrees
  split <;> simp

theorem length_trend (t : CTrend) : t.trees.length ≤ 1 := by unfold CTrend.trees; split <;> simp

theorem length_ser_title (t : ChartTitle) : (seriesTitleTrees U t).length ≤ 1 := by
  unfold seriesTitleTrees
  split
  · simp
  · split <;> simp

theorem length_bars (g : ChartGroup) (hg : g ≠ .scatter) (s : ChartSeries) : (errBarsTrees U parses g s).length ≤ 1 := by
  unfold errBarsTrees
  split
  · rw [List.length_map]; cases s.xErr <;> simp
  · exact absurd rfl hg
  · rw [List.length_map]; cases s.yErr <;> simp

theorem ser_order {k : ChartKind} {calls : List SeriesCall} {s : ChartSeries} (h : SeriesSuits k calls) (hi : IsSeries k (addedSeries k calls) s) (i : Nat)
    (hs : SecTags (serSecs U parses k (addedSeries k calls) i s)) :
    InOrder (seriesOrder k.group.tag) (seriesRepeated k.group.tag) (tagsOf (toNodes (secTrees (serSecs U parses k (addedSeries k calls) i s)))) := by
  have hsmooth : "c:smooth".toList ∉ seriesKeep k.group → oneIf "c:smooth".toList ((addedSeries k calls).smoothOn k) = [] := by
    intro hn
    unfold SeriesOpts.smoothOn
    rw [if_neg (fun e => hn (by rw [e]; decide)), if_neg (fun e => hn (by rw [e]; decide))]
    rfl
  have hext : "c:extLst".toList ∉ seriesKeep k.group → (if k.group ≠ .scatter ∧ (addedSeries k calls).invertColor.isAutoOrDefault = false then
      [invertExt (addedSeries k calls).invertColor] else []) = [] := by
    intro hn
    rcases h.invert with h1 | h1
    · rcases h1 with h1 | h1 | h1
      · exact absurd (by rw [h1]; decide) hn
      · exact absurd (by rw [h1]; decide) hn
      · exact if_neg fun hh => hh.1 h1
    · rw [ser_inverted, no_invert h1]
      exact if_neg fun hh => absurd hh.2 (by decide)
  have htrend : "c:trendline".toList ∉ seriesKeep k.group → (addedSeries k calls).trend.trees = [] := by
    intro hn
    rcases h.trend with h1 | h1
    · refine absurd ?_ hn
      cases hg : k.group <;> first | decide | simp [hg] at h1
    · rw [ser_trend, h1]; rfl
  have hbars : "c:errBars".toList ∉ seriesKeep k.group → errBarsTrees U parses k.group s = [] := by
    intro hn
    rcases h.bars with h1 | h1
    · refine absurd ?_ hn
      cases hg : k.group <;> first | decide | simp [hg] at h1
    · have hy : s.yErr.toList = [] := by
        have := hi.yErr
        rw [ser_yErr, h1] at this
        cases e : s.yErr with
        | none => rfl
        | some x => rw [e] at this; exact this.elim
      rw [errBarsTrees_eq, hy]
      rw [if_neg]
      · split <;> rfl
      · rintro (e | e) <;> exact hn (by rw [e]; decide)
  by_cases hg : k.group = .scatter
  · -- scatter charts
    have hrep : seriesRepeated k.group.tag = ["c:dPt".toList, "c:errBars".toList] := by rw [hg]; rfl
    have hone : ∀ p ∈ serSecs U parses k (addedSeries k calls) i s, p.2.length ≤ 1 ∨ p.1 ∈ seriesRepeated k.group.tag := by
      rw [hrep]
      unfold serSecs SeriesOpts.preSecs dataSecs SeriesOpts.postSecs
      simp only [if_pos hg, List.cons_append, List.nil_append]
      repeat refine few_cons (by first
        | exact Or.inl (length_marker _) | exact Or.inl (length_label _ _ _ _) | exact Or.inl (length_trend _)
        | exact Or.inl (length_ser_title _) | exact Or.inl (Nat.zero_le 1) | len_tac) ?_
      exact fun p hp => absurd hp List.not_mem_nil
    have hnames : (serSecs U parses k (addedSeries k calls) i s).map Prod.fst = ["c:idx".toList, "c:order".toList, "c:tx".toList, "c:marker".toList,
        "c:spPr".toList, "c:invertIfNegative".toList, "c:dPt".toList, "c:dLbls".toList, "c:trendline".toList, "c:errBars".toList, "c:xVal".toList,
        "c:yVal".toList, "c:extLst".toList, "c:smooth".toList] := by
      unfold serSecs
      simp only [List.map_append, preSecs_names]
      unfold dataSecs
      rw [if_pos hg, if_pos hg]; rfl
    rcases h.scatter hg with ⟨h1, h2⟩ | ⟨h1, h2⟩
    · have hm : markerTrees (addedSeries k calls).marker = [] := by
        rw [ser_marker, said_none h1 (by intro c; cases c <;> simp [saysMarker]), h2]; rfl
      refine trees_keep (keep := seriesKeep .scatter) hs (by rw [hg]; exact keep_in _) ?_ (by rw [hnames, hg]; decide) hone
      rw [hg] at hext
      unfold serSecs SeriesOpts.preSecs dataSecs SeriesOpts.postSecs
      simp only [if_pos hg, List.cons_append, List.nil_append]
      repeat refine out_cons (by first
        | exact fun _ => hm | exact fun _ => rfl | exact fun h => absurd (by decide) h | exact fun _ => if_neg fun hh => hh.1 hg) ?_
      exact fun p hp => absurd hp List.not_mem_nil
    · have hf : ((addedSeries k calls).scatterFormat k).trees = [] := by
        unfold SeriesOpts.scatterFormat
        rw [if_neg fun e => h1 e.1, ser_format]
        unfold newFormat
        rw [if_neg h1, h2]; rfl
      refine trees_keep (keep := "c:marker".toList :: (seriesKeep .scatter).filter fun t => t ≠ "c:spPr".toList) hs (by rw [hg]; decide) ?_
        (by rw [hnames, hg]; decide) hone
      unfold serSecs SeriesOpts.preSecs dataSecs SeriesOpts.postSecs
      simp only [if_pos hg, List.cons_append, List.nil_append]
      repeat refine out_cons (by first
        | exact fun _ => hf | exact fun _ => rfl | exact fun h => absurd (by decide) h | exact fun _ => if_neg fun hh => hh.1 hg) ?_
      exact fun p hp => absurd hp List.not_mem_nil
  · have hmarker : "c:marker".toList ∉ seriesKeep k.group → markerTrees (addedSeries k calls).marker = [] := by
      intro hn
      have hno : noMarkers k = false := by
        cases k <;> first | rfl | exact absurd (by decide) hn | exact absurd rfl hg
      rcases h.marker with h1 | h1
      · rcases h1 with h1 | h1 | h1 | h1
        · exact absurd (by rw [h1]; decide) hn
        · exact absurd (by rw [h1]; decide) hn
        · exact absurd (by rw [h1]; decide) hn
        · exact absurd h1 hg
      · rw [ser_marker, said_none h1 (by intro c; cases c <;> simp [saysMarker]), hno]; rfl
    have hinv : "c:invertIfNegative".toList ∉ seriesKeep k.group → oneIf "c:invertIfNegative".toList (addedSeries k calls).invert = [] := by
      intro hn
      rcases h.invert with h1 | h1
      · rcases h1 with h1 | h1 | h1
        · exact absurd (by rw [h1]; decide) hn
        · exact absurd (by rw [h1]; decide) hn
        · exact absurd h1 hg
      · rw [ser_invert, h1]; rfl
    have hall : ∀ t ∈ (["c:idx".toList, "c:order".toList, "c:tx".toList, "c:spPr".toList, "c:dPt".toList, "c:dLbls".toList, "c:cat".toList,
        "c:val".toList] : List Text), t ∈ seriesKeep k.group := by
      revert hg
      generalize k.group = g
      cases g <;> decide
    have hnames : (serSecs U parses k (addedSeries k calls) i s).map Prod.fst = ["c:idx".toList, "c:order".toList, "c:tx".toList, "c:spPr".toList,
        "c:marker".toList, "c:invertIfNegative".toList, "c:dPt".toList, "c:dLbls".toList, "c:trendline".toList, "c:errBars".toList, "c:cat".toList,
        "c:val".toList, "c:extLst".toList, "c:smooth".toList] := by
      unfold serSecs
      simp only [List.map_append, preSecs_names]
      unfold dataSecs
      rw [if_neg hg, if_neg hg]; rfl
    refine trees_keep (keep := seriesKeep k.group) hs (keep_in _) ?_ ?_ ?_
    · unfold serSecs SeriesOpts.preSecs dataSecs SeriesOpts.postSecs
      simp only [if_neg hg, List.cons_append, List.nil_append]
      refine out_cons (fun h => absurd (hall _ (by decide)) h) ?_
      refine out_cons (fun h => absurd (hall _ (by decide)) h) ?_
      refine out_cons (fun h => absurd (hall _ (by decide)) h) ?_
      refine out_cons (fun h => absurd (hall _ (by decide)) h) ?_
      refine out_cons (hmarker) ?_
      refine out_cons (hinv) ?_
      refine out_cons (fun h => absurd (hall _ (by decide)) h) ?_
      refine out_cons (fun h => absurd (hall _ (by decide)) h) ?_
      refine out_cons (htrend) ?_
      refine out_cons (hbars) ?_
      refine out_cons (fun h => absurd (hall _ (by decide)) h) ?_
      refine out_cons (fun h => absurd (hall _ (by decide)) h) ?_
      refine out_cons (hext) ?_
      refine out_cons (hsmooth) ?_
      exact fun p hp => absurd hp List.not_mem_nil
    · rw [hnames]
      revert hg
      generalize k.group = g
      cases g <;> decide
    · have hrep : "c:dPt".toList ∈ seriesRepeated k.group.tag := by
        generalize k.group = g
        cases g <;> decide
      unfold serSecs SeriesOpts.preSecs dataSecs SeriesOpts.postSecs
      simp only [if_neg hg, List.cons_append, List.nil_append]
      refine few_cons (Or.inl (Nat.le_refl 1)) ?_
      refine few_cons (Or.inl (Nat.le_refl 1)) ?_
      refine few_cons (Or.inl (length_ser_title _)) ?_
      refine few_cons (Or.inl (length_format _)) ?_
      refine few_cons (Or.inl (length_marker _)) ?_
      refine few_cons (Or.inl (length_oneIf _ _)) ?_
      refine few_cons (Or.inr hrep) ?_
      refine few_cons (Or.inl (length_label _ _ _ _)) ?_
      refine few_cons (Or.inl (length_trend _)) ?_
      refine few_cons (Or.inl (length_bars _ hg _)) ?_
      refine few_cons (Or.inl (length_if _)) ?_
      refine few_cons (Or.inl (Nat.le_refl 1)) ?_
      refine few_cons (Or.inl (length_if _)) ?_
      refine few_cons (Or.inl (length_oneIf _ _)) ?_
      exact fun p hp => absurd hp List.not_mem_nil

theorem series_order_in {b : ChartBody} {k : ChartKind} {ss : List GivenSeries} {m : CacheMap} (hf : BodyFits b k ss) (h : ∀ g ∈ ss, givenOk k g)
    (hsuit : ∀ g ∈ ss, SeriesSuits k g.calls)
    (hg : GroupGood U parses shown ((b.withSeries k ss).update m)) (hs : ∀ s ∈ ((b.withSeries k ss).update m).series, SeriesFilled shown s)
    (ids ids2 : Nat × Nat) (i : Nat) : ∀ x ∈ chartTypeTrees U parses ids ids2 ((b.withSeries k ss).update m) i,
      ∀ s ∈ elemsIn ["c:ser".toList] (treeParts x).2, InOrder (seriesOrder (treeTag x)) (seriesRepeated (treeTag x)) (tagsOf s.2.2) := by
  have hmem : ∀ g ∈ ss, g.filled k m ∈ ((b.withSeries k ss).update m).series := by
    intro g hg
    show _ ∈ (ss.map _).map _
    rw [List.map_map]
    exact List.mem_map.mpr ⟨g, hg, rfl⟩
  have hk : ((b.withSeries k ss).update m).group = k.group := hf.group
  have key : ∀ (b' : ChartBody), GroupGood U parses shown b' → b'.group = k.group → ∀ (p : GivenSeries → Bool) (ids : Nat × Nat) (j : Nat),
      ∀ x ∈ groupTrees U parses ids b' j ((ss.filter p).map fun g => g.filled k m),
        ∀ s ∈ elemsIn ["c:ser".toList] (treeParts x).2, InOrder (seriesOrder (treeTag x)) (seriesRepeated (treeTag x)) (tagsOf s.2.2) := by
    intro b' hb hk' p ids j x hx s hs'
    unfold groupTrees at hx
    split at hx
    · cases hx
    · obtain rfl := List.mem_singleton.mp hx
      obtain ⟨y, hy, ht, rfl⟩ := mem_elemsIn hs'
      have ht := List.mem_singleton.mp ht
      have hy : y ∈ seriesTrees U parses b'.group j ((ss.filter p).map fun g => g.filled k m) := by
        rcases List.mem_append.mp hy with hy | hy
        · rcases List.mem_append.mp hy with hy | hy
          · rcases List.mem_append.mp hy with hy | hy
            · exact absurd ht (hb.head.noTag (k := "c:ser".toList) (by decide) y hy)
            · exact hy
          · exact absurd ht (hb.tail.noTag (k := "c:ser".toList) (by decide) y hy)
        · rw [(ids_ok _ ids y hy).2] at ht
          exact absurd ht (by decide)
      rw [hk', seriesTrees_eq] at hy
      obtain ⟨q, hq, rfl⟩ := List.mem_map.mp hy
      obtain ⟨g, hg', e⟩ := List.mem_map.mp (List.fst_mem_of_mem_zipIdx hq)
      have hgs := (List.mem_filter.mp hg').1
      have ok := h g hgs
      have hm := hmem g hgs
      have good := hg.series _ hm
      rw [hk] at good
      have fill := hs _ hm
      rw [e] at good fill
      have hi : IsSeries k (addedSeries k g.calls) q.1 := by
        rw [← e, ← given_opts ok]
        exact (isSeries g.data k (g.opts k)).update m
      rw [ser_kids hi]
      show InOrder (seriesOrder b'.group.tag) (seriesRepeated b'.group.tag) (tagsOf (toNodes (secTrees _)))
      rw [hk']
      exact ser_order (hsuit g hgs) hi q.2 (ser_secs (added_ok k ok.2) good fill q.2).tags
  intro x hx
  unfold chartTypeTrees at hx
  rw [filled_series, filled_series] at hx
  rcases List.mem_append.mp hx with hx | hx
  · exact key _ hg hk _ _ _ x hx
  · exact key _ hg.second hf.group _ _ _ x hx

theorem chart_series_order {c : Chart} {k : ChartKind} {ss : List GivenSeries} {second : Option (ChartKind × List GivenSeries)} {m : CacheMap}
    (hf : BodyFits c.body k ss) (hf2 : SecondFits c second) (h : ∀ p ∈ allSeries k ss second, givenOk p.1 p.2)
    (hsuit : ∀ p ∈ allSeries k ss second, SeriesSuits p.1 p.2.calls)
    (hb : ∀ p ∈ allSeries k ss second, BarsGood U parses shown p.2) (hg : ChartGood U parses shown c)
    (hs : ChartFilled shown ((c.withSeries k ss second).update m)) :
    ∃ area, plotAreaOf (chartSpaceTree U parses ((c.withSeries k ss second).update m)).toNode = some area ∧ SeriesOrdered area := by
  have gm := (withSeries_good hf hf2 h hb hg).update m
  have hin : ∀ k (ss : List GivenSeries) g, g ∈ ss → (k, g) ∈ inGroups k ss := by
    intro k ss g hg
    refine List.mem_map.mpr ⟨g, List.mem_append.mpr ?_, rfl⟩
    cases e : g.data.secondary
    · exact Or.inl (List.mem_filter.mpr ⟨hg, by rw [e]; rfl⟩)
    · exact Or.inr (List.mem_filter.mpr ⟨hg, by rw [e]⟩)
  have first := series_order_in hf (fun g hg => h (k, g) (List.mem_append_left _ (hin k ss g hg)))
    (fun g hg => hsuit (k, g) (List.mem_append_left _ (hin k ss g hg))) gm.body hs.series
  have comb : ∀ x ∈ combinedTrees U parses ((c.withSeries k ss second).update m),
      ∀ s ∈ elemsIn ["c:ser".toList] (treeParts x).2, InOrder (seriesOrder (treeTag x)) (seriesRepeated (treeTag x)) (tagsOf s.2.2) := by
    unfold SecondFits at hf2
    unfold combinedTrees
    cases e : c.combined with
    | none =>
      rw [e] at hf2
      cases second with
      | some p => exact hf2.elim
      | none =>
        have ec : ((c.withSeries k ss none).update m).combined = none := by
          show Option.map _ (withSecond c.combined none) = none
          rw [e]; rfl
        rw [ec]
        exact fun x hx => absurd hx List.not_mem_nil
    | some b =>
      rw [e] at hf2
      cases second with
      | none => exact hf2.elim
      | some p =>
        have ec : ((c.withSeries k ss (some p)).update m).combined = some ((b.withSeries p.1 p.2).update m) := by
          show Option.map _ (withSecond c.combined (some p)) = _
          rw [e]; rfl
        rw [ec]
        exact series_order_in hf2 (fun g hg => h (p.1, g) (List.mem_append_right _ (hin p.1 p.2 g hg)))
          (fun g hg => hsuit (p.1, g) (List.mem_append_right _ (hin p.1 p.2 g hg))) (gm.combined _ ec) (hs.combined _ ec) _ _ _
  generalize hc : (c.withSeries k ss second).update m = c' at gm comb ⊢
  have first : ∀ x ∈ chartTypeTrees U parses c'.axisIds c'.axis2Ids c'.body 0,
      ∀ s ∈ elemsIn ["c:ser".toList] (treeParts x).2, InOrder (seriesOrder (treeTag x)) (seriesRepeated (treeTag x)) (tagsOf s.2.2) := by
    rw [← hc]; exact first _ _ _
  refine ⟨(treeParts (plotAreaTree U parses c')).2, ?_, ?_⟩
  · rw [toNode_parts]
    unfold plotAreaOf
    dsimp only
    rw [if_pos (show treeTag (chartSpaceTree U parses c') = "c:chartSpace".toList from rfl)]
    unfold chartSpaceTree
    simp only [treeParts]
    rw [(gm.spacePre.noTag (by decide)).child, child_head (t := "c:chart".toList) _ _ (by rfl)]
    unfold chartTree
    simp only [treeParts]
    show Option.map _ (child "c:plotArea".toList _) = _
    rw [NoTag.child, child_head (t := "c:plotArea".toList) _ _ (by rfl)]
    · rfl
    · split
      · exact NoTag.cons (by tagne) (NoTag.nil _)
      · exact NoTag.all (chartTitleTrees_tag _) (by decide)
  · intro e he
    obtain ⟨x, hx, ht, rfl⟩ := mem_elemsIn (show e ∈ elemsIn groupTags (toNodes (c'.layout ++ chartTypeTrees U parses c'.axisIds c'.axis2Ids c'.body 0 ++
      combinedTrees U parses c' ++ primaryAxes U c'.body c'.axisIds ++ secondaryAxes U c' ++ c'.areaTail)) from he)
    have ha := axes_tag (U := U) c'
    simp only [List.mem_append, or_assoc] at hx
    rcases hx with hx | hx | hx | hx | hx | hx
    · exact absurd (List.mem_append_left _ ht) (gm.layout x hx).2
    · exact first x hx
    · exact comb x hx
    · have := ha x (List.mem_append_left _ hx)
      exact absurd ht ((by decide : ∀ t ∈ axisTags, t ∉ groupTags) _ this)
    · have := ha x (List.mem_append_right _ hx)
      exact absurd ht ((by decide : ∀ t ∈ axisTags, t ∉ groupTags) _ this)
    · exact absurd (List.mem_append_left _ ht) (gm.areaTail x hx).2

/-- C78: when charts are saved, the elements of each series are those of the schema for its type of chart, in its order, and each is there
at most once unless it may be repeated, for all calls on the series that are for charts of that type. Missing for the full property: the
calls left out by `SeriesSuits` (see the counterexamples). -/
theorem C78_series_order_partial {Fmt : Type} [DecidableEq Fmt] (U : Unicode) (parses : Str → Bool) (lower : Str → Str) (cfg : Cfg)
    (hstd : cfg.isStandard) (merge : Fmt → Fmt → Fmt) (dflt : Fmt) (sheets : List (Str × Sheet Fmt))
    (hm : Made lower cfg merge dflt sheets) (charts out : List Chart) (hp : prepareCaches sheets charts = some out)
    (sst : SST) (i : Nat) (c : Chart) (k : ChartKind) (ss : List GivenSeries) (second : Option (ChartKind × List GivenSeries))
    (hi : charts[i]? = some (c.withSeries k ss second)) (hg : ChartGood U parses (shownOn sheets sst) c)
    (hf : BodyFits c.body k ss) (hf2 : SecondFits c second)
    (h : ∀ p ∈ allSeries k ss second, givenOk p.1 p.2) (hb : ∀ p ∈ allSeries k ss second, BarsGood U parses (shownOn sheets sst) p.2)
    (hsuit : ∀ p ∈ allSeries k ss second, SeriesSuits p.1 p.2.calls) :
    ∃ c' node area, out[i]? = some c' ∧ parseDoc (writePart (chartSpaceTree U parses c')) = some node ∧
      plotAreaOf node = some area ∧ SeriesOrdered area := by
  obtain ⟨m, rfl, hcm⟩ := prepareCaches_some hp
  have good := withSeries_good hf hf2 h hb hg
  have hfl : ChartFilled (shownOn sheets sst) ((c.withSeries k ss second).update m) := by
    refine chart_filled (hm.shows hstd sst) hcm (fun r hr => ?_) good
    exact List.mem_flatMap.mpr ⟨_, List.mem_of_getElem? hi, hr⟩
  obtain ⟨area, h1, h2⟩ := chart_series_order hf hf2 h hsuit hb hg hfl
  exact ⟨(c.withSeries k ss second).update m, _, area, by rw [List.getElem?_map, hi]; rfl,
    C07_part_roundtrip _ (chartSpaceTree_ok (good.update m) hfl), h1, h2⟩

/-! ### A sample and counterexamples -/

/-- The series of the sample chart: a column has no marker. -/
def suitGiven : List GivenSeries := [⟨salesSeries true, true, salesLook.dropLast⟩, ⟨salesSeries false, false, []⟩]

theorem suitGiven_all : allSeries .columnStacked suitGiven salesSecond =
    [(.columnStacked, ⟨salesSeries false, false, []⟩), (.columnStacked, ⟨salesSeries true, true, salesLook.dropLast⟩),
     (.scatterStraight, ⟨salesSeries true, false, scatterLook⟩)] := rfl

theorem suitGiven_old (p : ChartKind × GivenSeries) (hp : p ∈ allSeries .columnStacked suitGiven salesSecond) :
    ∃ q ∈ allSeries .columnStacked salesGiven salesSecond, q.1 = p.1 ∧ q.2.data = p.2.data ∧ q.2.pushed = p.2.pushed ∧
      ∀ c ∈ p.2.calls, c ∈ q.2.calls := by
  rw [suitGiven_all] at hp
  rw [salesGiven_all]
  simp only [List.mem_cons, List.not_mem_nil, or_false] at hp
  rcases hp with rfl | rfl | rfl
  · exact ⟨_, List.mem_cons_self, rfl, rfl, rfl, fun c h => h⟩
  · exact ⟨_, List.mem_cons_of_mem _ List.mem_cons_self, rfl, rfl, rfl, fun c h => List.dropLast_subset _ h⟩
  · exact ⟨_, List.mem_cons_of_mem _ (List.mem_cons_of_mem _ List.mem_cons_self), rfl, rfl, rfl, fun c h => h⟩

theorem suitGiven_ok : ∀ p ∈ allSeries .columnStacked suitGiven salesSecond, givenOk p.1 p.2 := by
  intro p hp
  obtain ⟨q, hq, e1, e2, e3, h⟩ := suitGiven_old p hp
  obtain ⟨h1, h2⟩ := salesGiven_ok q hq
  rw [e1, e3] at h1
  exact ⟨h1, fun c hc => h2 c (h c hc)⟩

theorem suitGiven_bars : ∀ p ∈ allSeries .columnStacked suitGiven salesSecond,
    BarsGood asciiUnicode demoParses (shownOn salesSheets SST.new) p.2 := by
  intro p hp e he hk
  obtain ⟨q, hq, _, _, _, h⟩ := suitGiven_old p hp
  exact salesGiven_bars q hq e (he.imp (h _) (h _)) hk

theorem suitGiven_suits : ∀ p ∈ allSeries .columnStacked suitGiven salesSecond, SeriesSuits p.1 p.2.calls := by
  rw [suitGiven_all]
  intro p hp
  simp only [List.mem_cons, List.not_mem_nil, or_false] at hp
  rcases hp with rfl | rfl | rfl
  · exact ⟨Or.inr rfl, fun h => absurd h (by decide), Or.inl (by decide), Or.inl (by decide), Or.inl (by decide)⟩
  · exact ⟨Or.inr rfl, fun h => absurd h (by decide), Or.inl (by decide), Or.inl (by decide), Or.inl (by decide)⟩
  · exact ⟨Or.inl (by decide), fun _ => Or.inr ⟨by decide, rfl⟩, Or.inl (by decide), Or.inl (by decide), Or.inl (by decide)⟩

/-- The sample meets the conditions of `C78_series_order_partial`. -/
example : ∃ out, prepareCaches salesSheets [salesChart.withSeries .columnStacked suitGiven salesSecond] = some out ∧
    ∃ c' node area, out[0]? = some c' ∧ parseDoc (writePart (chartSpaceTree asciiUnicode demoParses c')) = some node ∧
      plotAreaOf node = some area ∧ SeriesOrdered area := by
  refine ⟨_, rfl, ?_⟩
  exact C78_series_order_partial asciiUnicode demoParses id {} ⟨rfl, rfl, rfl, rfl⟩ (fun a _ => a) 0 salesSheets salesSheets_made
    [salesChart.withSeries .columnStacked suitGiven salesSecond] _ rfl SST.new 0 salesChart .columnStacked suitGiven salesSecond rfl
    salesChart_good ⟨rfl, rfl⟩ (show BodyFits _ _ _ from ⟨rfl, rfl⟩) suitGiven_ok suitGiven_bars suitGiven_suits

/-- The names of the elements of the series of a chart. -/
def seriesNames (c : Chart) : Option (List (List Text)) :=
  (plotAreaOf (chartSpaceTree asciiUnicode demoParses c).toNode).map fun area =>
    (elemsIn groupTags area).flatMap fun e => (elemsIn ["c:ser".toList] e.2.2).map fun s => tagsOf s.2.2

-- The elements of the series of the sample.
set_option synthInstance.maxSize 4000 in
set_option synthInstance.maxHeartbeats 400000 in
example : seriesNames (salesChart.withSeries .columnStacked suitGiven salesSecond) = some
    [["c:idx".toList, "c:order".toList, "c:tx".toList, "c:cat".toList, "c:val".toList],
     ["c:idx".toList, "c:order".toList, "c:tx".toList, "c:spPr".toList, "c:invertIfNegative".toList, "c:dPt".toList, "c:dLbls".toList, "c:trendline".toList, "c:errBars".toList, "c:cat".toList, "c:val".toList, "c:extLst".toList],
     ["c:idx".toList, "c:order".toList, "c:tx".toList, "c:marker".toList, "c:errBars".toList, "c:xVal".toList, "c:yVal".toList, "c:smooth".toList]] := by
  decide +kernel

/-- Some elements are not in order. -/
theorem not_inOrder {order rep l : List Text}
    (h : ¬ ((∀ t ∈ l, t ∈ order) ∧ l.Pairwise fun a b => order.idxOf a < order.idxOf b ∨ a = b ∧ a ∈ rep)) : ¬ InOrder order rep l :=
  fun h' => h ⟨h'.1, h'.2⟩

/-- F175: in a scatter chart the marker is written before the format of the series, which the schema does not allow: a format in a chart
of lines without markers, and a marker in a chart of points. -/
theorem C78_scatter_counterexample :
    (seriesNames (seriesChart .scatterStraight false [.format { line := some { color := .red } }]) = some [["c:idx".toList, "c:order".toList, "c:marker".toList, "c:spPr".toList, "c:xVal".toList, "c:yVal".toList]] ∧
      ¬ InOrder (seriesOrder "c:scatterChart".toList) (seriesRepeated "c:scatterChart".toList) ["c:idx".toList, "c:order".toList, "c:marker".toList, "c:spPr".toList, "c:xVal".toList, "c:yVal".toList]) ∧
    (seriesNames (seriesChart .scatter false [.marker (newMarker [.type .square])]) = some [["c:idx".toList, "c:order".toList, "c:marker".toList, "c:spPr".toList, "c:xVal".toList, "c:yVal".toList]] ∧
      ¬ InOrder (seriesOrder "c:scatterChart".toList) (seriesRepeated "c:scatterChart".toList) ["c:idx".toList, "c:order".toList, "c:marker".toList, "c:spPr".toList, "c:xVal".toList, "c:yVal".toList]) :=
  ⟨⟨by decide +kernel, not_inOrder (by decide +kernel)⟩,
   ⟨by decide +kernel, not_inOrder (by decide +kernel)⟩⟩

/-- F176: the marker of a series in a column chart is written, which the schema does not allow. -/
theorem C78_marker_counterexample :
    (seriesNames (seriesChart .column false [.marker (newMarker [.type .square])]) = some [["c:idx".toList, "c:order".toList, "c:marker".toList, "c:cat".toList, "c:val".toList]] ∧
      ¬ InOrder (seriesOrder "c:barChart".toList) (seriesRepeated "c:barChart".toList) ["c:idx".toList, "c:order".toList, "c:marker".toList, "c:cat".toList, "c:val".toList]) :=
  ⟨by decide +kernel, not_inOrder (by decide +kernel)⟩

/-- F177: that negative values are inverted is written for a line, and the fill of negative values before `c:smooth`. -/
theorem C78_invert_counterexample :
    (seriesNames (seriesChart .line false [.invert]) = some [["c:idx".toList, "c:order".toList, "c:marker".toList, "c:invertIfNegative".toList, "c:cat".toList, "c:val".toList]] ∧
      ¬ InOrder (seriesOrder "c:lineChart".toList) (seriesRepeated "c:lineChart".toList) ["c:idx".toList, "c:order".toList, "c:marker".toList, "c:invertIfNegative".toList, "c:cat".toList, "c:val".toList]) ∧
    (seriesNames (seriesChart .line false [.invertColor .red, .smooth true]) = some [["c:idx".toList, "c:order".toList, "c:marker".toList, "c:invertIfNegative".toList, "c:cat".toList, "c:val".toList, "c:extLst".toList, "c:smooth".toList]] ∧
      ¬ InOrder (seriesOrder "c:lineChart".toList) (seriesRepeated "c:lineChart".toList) ["c:idx".toList, "c:order".toList, "c:marker".toList, "c:invertIfNegative".toList, "c:cat".toList, "c:val".toList, "c:extLst".toList, "c:smooth".toList]) :=
  ⟨⟨by decide +kernel, not_inOrder (by decide +kernel)⟩,
   ⟨by decide +kernel, not_inOrder (by decide +kernel)⟩⟩

/-- F178: trendlines and error bars are written for the series of a pie chart. -/
theorem C78_pie_counterexample :
    (seriesNames (seriesChart .pie false [.trend (newTrend [.type .linear]), .yErr (newErrBars [.type false (.fixed "2".toList)])]) = some [["c:idx".toList, "c:order".toList, "c:trendline".toList, "c:errBars".toList, "c:cat".toList, "c:val".toList]] ∧
      ¬ InOrder (seriesOrder "c:pieChart".toList) (seriesRepeated "c:pieChart".toList) ["c:idx".toList, "c:order".toList, "c:trendline".toList, "c:errBars".toList, "c:cat".toList, "c:val".toList]) :=
  ⟨by decide +kernel, not_inOrder (by decide +kernel)⟩

end Verif
