import Verif.Props.ChartSeriesRead
/-!
C74: a whole series element reads back.
-/
namespace Verif
open Spec

variable {U : Unicode} {parses : Str → Bool} {shown : Text → Nat → Nat → Content}

/-! ### What can be written -/

/-- The formatting of a series can be written. -/
structure SeriesOpts.Ok (o : SeriesOpts) : Prop where
  format : cFormatOk o.format = true
  marker : ∀ m, o.marker = some m → markerOk m = true
  label : ∀ l, o.label = some l → labelOk l = true
  custom : ∀ l ∈ o.customLabels, labelOk l = true
  points : ∀ f ∈ o.points, cFormatOk f = true
  inverted : o.invertColor.isValid = true
  trend : trendOk o.trend = true
  xErr : ∀ e, o.xErr = some e → barsOk e = true
  yErr : ∀ e, o.yErr = some e → barsOk e = true

theorem markerOk_parts {m : CMarker} (h : markerOk m = true) : cFormatOk m.format = true ∧
    (m.automatic = true ∨ ∃ v, m.symbolAttrs.lookup "val".toList = some v) := by
  unfold markerOk at h
  rw [Bool.and_eq_true] at h
  refine ⟨h.1, ?_⟩
  rcases Bool.or_eq_true _ _ |>.mp h.2 with e | e
  · rcases Bool.or_eq_true _ _ |>.mp e with e | e
    · exact Or.inl e
    · right
      unfold CMarker.symbolAttrs
      rw [e]
      cases m.shape with
      | some s => exact ⟨_, rfl⟩
      | none => exact ⟨_, rfl⟩
  · right
    unfold CMarker.symbolAttrs
    cases hs : m.shape with
    | some s => exact ⟨_, rfl⟩
    | none => rw [hs] at e; cases e

theorem markers_ok {o : Option CMarker} (h : ∀ m, o = some m → markerOk m = true) :
    ∀ x ∈ markerTrees o, treeOk x = true ∧ treeTag x = "c:marker".toList := by
  cases o with
  | none => intro x hx; cases hx
  | some m =>
    unfold markerTrees
    dsimp only
    split
    · intro x hx; cases hx
    · exact one_ok (treeOk_node (by decide +kernel) attrsGood_nil (ok_of_secs (marker_secs (markerOk_parts (h m rfl)).1))) rfl

theorem points_ok {g : ChartGroup} {n : Nat} {ps : List CFormat} (h : ∀ f ∈ ps, cFormatOk f = true) :
    ∀ x ∈ pointTrees g n ps, treeOk x = true ∧ treeTag x = "c:dPt".toList := by
  intro x hx
  obtain ⟨p, hp, rfl⟩ := List.mem_map.mp hx
  exact ⟨point_ok g p.2 (h _ (mem_upTo (n := n) (keep := fun f : CFormat => f.hasFormatting) hp)), rfl⟩

theorem trends_ok {t : CTrend} (h : trendOk t = true) : ∀ x ∈ t.trees, treeOk x = true ∧ treeTag x = "c:trendline".toList := by
  unfold CTrend.trees
  exact if_ok (treeOk_node (by decide +kernel) attrsGood_nil (ok_of_secs (trend_secs h))) rfl

theorem invertExt_ok {c : Color} (h : c.isValid = true) : treeOk (invertExt c) = true := by
  unfold invertExt
  exact treeOk_node (by decide +kernel) attrsGood_nil (ok_single (treeOk_node (by decide +kernel)
    (two_good (by decide +kernel) (by decide +kernel) (by decide +kernel) (by decide +kernel) (by decide +kernel)) (ok_single
    (treeOk_node (by decide +kernel) attrsGood_nil (ok_single (treeOk_node (by decide +kernel)
      (attrsGood_one (by decide +kernel) (by decide +kernel)) (ok_single (solidTree_ok h 0))))))))

theorem scatterFormat_ok {o : SeriesOpts} (h : cFormatOk o.format = true) (k : ChartKind) : cFormatOk (o.scatterFormat k) = true := by
  unfold SeriesOpts.scatterFormat
  split
  · unfold cFormatOk at h ⊢
    rw [Bool.and_eq_true] at h ⊢
    exact ⟨by dsimp only; decide, h.2⟩
  · exact h

theorem pre_secs_ok {o : SeriesOpts} (h : o.Ok) (k : ChartKind) (n : Nat) : SecsOk (o.preSecs k n) := by
  unfold SeriesOpts.preSecs
  have hl := labels_ok (g := k.group) (n := n) (fun x hx => ⟨h.label x hx, labelOk_sep (h.label x hx)⟩)
    (fun x hx => ⟨h.custom x hx, labelOk_sep (h.custom x hx)⟩)
  refine secsOk_append ?_ (secsOk_cons (points_ok h.points) (secsOk_cons hl (secsOk_cons (trends_ok h.trend) secsOk_nil)))
  split
  · exact secsOk_cons (markers_ok h.marker) (secsOk_cons (cFormat_ok (scatterFormat_ok h.format k)) (secsOk_cons nofun secsOk_nil))
  · exact secsOk_cons (cFormat_ok h.format) (secsOk_cons (markers_ok h.marker) (secsOk_cons (oneIf_ok (by decide +kernel) _) secsOk_nil))

theorem post_secs_ok {o : SeriesOpts} (h : o.Ok) (k : ChartKind) : SecsOk (o.postSecs k) := by
  unfold SeriesOpts.postSecs
  exact secsOk_cons (if_ok (invertExt_ok h.inverted) rfl) (secsOk_cons (oneIf_ok (by decide +kernel) _) secsOk_nil)

/-- The names of the sections before the error bars. -/
theorem preSecs_names (o : SeriesOpts) (k : ChartKind) (n : Nat) : (o.preSecs k n).map Prod.fst =
    (if k.group = .scatter then ["c:marker".toList, "c:spPr".toList, "c:invertIfNegative".toList]
      else ["c:spPr".toList, "c:marker".toList, "c:invertIfNegative".toList]) ++
    ["c:dPt".toList, "c:dLbls".toList, "c:trendline".toList] := by
  unfold SeriesOpts.preSecs
  split <;> rfl

theorem pre_free {o : SeriesOpts} (h : o.Ok) (k : ChartKind) (n : Nat) : Free seriesTags (secTrees (o.preSecs k n)) := by
  refine free_secs (pre_secs_ok h k n) ?_
  rw [preSecs_names]
  split <;> decide

theorem post_free {o : SeriesOpts} (h : o.Ok) (k : ChartKind) : Free seriesTags (secTrees (o.postSecs k)) := by
  refine free_secs (post_secs_ok h k) ?_
  show ∀ n ∈ (["c:extLst".toList, "c:smooth".toList] : List Str), n ∉ seriesTags
  decide

/-! ### Error bars of a series -/

theorem pairs_append {α β : Type} {R : α → β → Prop} {a a' : List α} {b b' : List β} (h : Pairs R a b) (h' : Pairs R a' b') :
    Pairs R (a ++ a') (b ++ b') := by
  induction a generalizing b with
  | nil =>
    cases b with
    | nil => exact h'
    | cons y b => exact h.elim
  | cons x a ih =>
    cases b with
    | nil => exact h.elim
    | cons y b => exact ⟨h.1, ih h.2⟩

theorem pairs_mapM2 {α β γ : Type} {tree : γ → Tree} {read : NodeAttrs × List Node → Option β} {S : α → γ → Prop} {R : α → β → Prop}
    {l : List α} {xs : List γ} (hp : Pairs S l xs) (h : ∀ a ∈ l, ∀ x ∈ xs, S a x → ∃ b, read (treeParts (tree x)) = some b ∧ R a b) :
    ∃ bs, ((xs.map tree).map treeParts).mapM read = some bs ∧ Pairs R l bs := by
  induction l generalizing xs with
  | nil =>
    cases xs with
    | nil => exact ⟨[], rfl, trivial⟩
    | cons x xs => exact hp.elim
  | cons a l ih =>
    cases xs with
    | nil => exact hp.elim
    | cons x xs =>
      obtain ⟨b, hb, hr⟩ := h a List.mem_cons_self x List.mem_cons_self hp.1
      obtain ⟨bs, hbs, hrs⟩ := ih hp.2 fun a ha x hx => h a (List.mem_cons_of_mem _ ha) x (List.mem_cons_of_mem _ hx)
      refine ⟨b :: bs, ?_, hr, hrs⟩
      rw [List.map_cons, List.map_cons, List.mapM_cons, hb, hbs]; rfl

/-- A series of the skeleton made from one with formatting; the caches may be any. -/
structure IsSeries (k : ChartKind) (o : SeriesOpts) (s : ChartSeries) : Prop where
  pre : s.pre = secTrees (o.preSecs k s.values.range.points)
  post : s.post = secTrees (o.postSecs k)
  xErr : Pairs (fun e x => IsErr e (errAxis k.group false) x) o.xErr.toList s.xErr.toList
  yErr : Pairs (fun e x => IsErr e (errAxis k.group true) x) o.yErr.toList s.yErr.toList

theorem isSeries (c : ChartSeries) (k : ChartKind) (o : SeriesOpts) : IsSeries k o (c.withOpts k o) := by
  refine ⟨rfl, rfl, ?_, ?_⟩
  · show Pairs _ o.xErr.toList (o.xErr.map _).toList
    cases o.xErr with
    | none => exact trivial
    | some e => exact ⟨isErr _ _, trivial⟩
  · show Pairs _ o.yErr.toList (o.yErr.map _).toList
    cases o.yErr with
    | none => exact trivial
    | some e => exact ⟨isErr _ _, trivial⟩

theorem pairs_update {axis : Str} {o : Option CErrBars} {x : Option ErrorBars} (h : Pairs (fun e x => IsErr e axis x) o.toList x.toList)
    (m : CacheMap) : Pairs (fun e x => IsErr e axis x) o.toList (x.map (·.update m)).toList := by
  cases o <;> cases x
  · exact trivial
  · exact h.elim
  · exact h.elim
  · exact ⟨h.1.update m, trivial⟩

theorem IsSeries.update {k : ChartKind} {o : SeriesOpts} {s : ChartSeries} (h : IsSeries k o s) (m : CacheMap) : IsSeries k o (s.update m) := by
  refine ⟨?_, h.post, pairs_update h.xErr m, pairs_update h.yErr m⟩
  show s.pre = secTrees (o.preSecs k (s.values.update m).range.points)
  rw [update_range]
  exact h.pre

/-- The error bars that are written, with their direction. -/
def errList (g : ChartGroup) (o : SeriesOpts) : List (CErrBars × Str) :=
  (if g = .bar ∨ g = .scatter then o.xErr.toList.map fun e => (e, errAxis g false) else []) ++
  (if g = .bar then [] else o.yErr.toList.map fun e => (e, errAxis g true))

theorem errPairs_axis {o : List CErrBars} {x : List ErrorBars} {axis : Str} (h : Pairs (fun e x => IsErr e axis x) o x) :
    Pairs (fun e x => IsErr e.1 e.2 x) (o.map fun e => (e, axis)) x := by
  induction o generalizing x with
  | nil => cases x <;> exact h
  | cons a o ih =>
    cases x with
    | nil => exact h
    | cons b x => exact ⟨h.1, ih h.2⟩

theorem errList_pairs {k : ChartKind} {o : SeriesOpts} {s : ChartSeries} (h : IsSeries k o s) :
    Pairs (fun e x => IsErr e.1 e.2 x) (errList k.group o)
      ((if k.group = .bar ∨ k.group = .scatter then s.xErr.toList else []) ++ (if k.group = .bar then [] else s.yErr.toList)) := by
  unfold errList
  refine pairs_append ?_ ?_
  · split
    · exact errPairs_axis h.xErr
    · exact trivial
  · split
    · exact trivial
    · exact errPairs_axis h.yErr

theorem errAxis_cases (g : ChartGroup) (y : Bool) : errAxis g y = [] ∨ errAxis g y = "x".toList ∨ errAxis g y = "y".toList := by
  unfold errAxis
  split
  · exact Or.inl rfl
  · cases y
    · exact Or.inr (Or.inl rfl)
    · exact Or.inr (Or.inr rfl)

theorem mem_errList {g : ChartGroup} {o : SeriesOpts} {p : CErrBars × Str} (h : p ∈ errList g o) :
    (o.xErr = some p.1 ∨ o.yErr = some p.1) ∧ (p.2 = [] ∨ p.2 = "x".toList ∨ p.2 = "y".toList) := by
  unfold errList at h
  rcases List.mem_append.mp h with h | h
  · split at h
    · obtain ⟨e, he, rfl⟩ := List.mem_map.mp h
      exact ⟨Or.inl (by simpa using he), errAxis_cases _ _⟩
    · cases h
  · split at h
    · cases h
    · obtain ⟨e, he, rfl⟩ := List.mem_map.mp h
      exact ⟨Or.inr (by simpa using he), errAxis_cases _ _⟩

/-! ### The element -/

/-- The elements of the data of a series. -/
def dataSecs (U : Unicode) (parses : Str → Bool) (g : ChartGroup) (s : ChartSeries) : List (Str × List Tree) :=
  if g = .scatter then
    [("c:xVal".toList, [.node "c:xVal".toList [] [cacheRefTree U parses false s.cats]]),
     ("c:yVal".toList, [.node "c:yVal".toList [] [cacheRefTree U parses true s.values]])]
  else
    [("c:cat".toList, if s.cats.range.hasData then [.node "c:cat".toList [] [cacheRefTree U parses false s.cats]] else []),
     ("c:val".toList, [.node "c:val".toList [] [cacheRefTree U parses true s.values]])]

theorem data_kids (g : ChartGroup) (s : ChartSeries) : dataTrees U parses g s = secTrees (dataSecs U parses g s) := by
  unfold dataSecs secTrees
  cases g <;> simp [dataTrees]

/-- All elements of a series. -/
def serSecs (U : Unicode) (parses : Str → Bool) (k : ChartKind) (o : SeriesOpts) (i : Nat) (s : ChartSeries) : List (Str × List Tree) :=
  [("c:idx".toList, [.empty "c:idx".toList [("val".toList, showNat i)]]), ("c:order".toList, [.empty "c:order".toList [("val".toList, showNat i)]]),
   ("c:tx".toList, seriesTitleTrees U s.title)] ++ o.preSecs k s.values.range.points ++
  [("c:errBars".toList, errBarsTrees U parses k.group s)] ++ dataSecs U parses k.group s ++ o.postSecs k

theorem ser_kids {k : ChartKind} {o : SeriesOpts} {s : ChartSeries} (h : IsSeries k o s) (i : Nat) :
    seriesTree U parses k.group i s = .node "c:ser".toList [] (secTrees (serSecs U parses k o i s)) := by
  unfold seriesTree serSecs
  rw [h.pre, h.post, data_kids]
  unfold secTrees
  simp only [List.flatMap_append, List.flatMap_cons, List.flatMap_nil, List.append_nil, List.cons_append, List.nil_append, List.append_assoc]

theorem ser_nodup (U : Unicode) (parses : Str → Bool) (k : ChartKind) (o : SeriesOpts) (i : Nat) (s : ChartSeries) :
    ((serSecs U parses k o i s).map Prod.fst).Nodup := by
  unfold serSecs
  simp only [List.map_append, preSecs_names]
  unfold dataSecs
  by_cases hg : k.group = .scatter
  · rw [if_pos hg, if_pos hg]
    show (["c:idx".toList, "c:order".toList, "c:tx".toList, "c:marker".toList, "c:spPr".toList, "c:invertIfNegative".toList, "c:dPt".toList,
      "c:dLbls".toList, "c:trendline".toList, "c:errBars".toList, "c:xVal".toList, "c:yVal".toList, "c:extLst".toList, "c:smooth".toList] : List Str).Nodup
    decide
  · rw [if_neg hg, if_neg hg]
    show (["c:idx".toList, "c:order".toList, "c:tx".toList, "c:spPr".toList, "c:marker".toList, "c:invertIfNegative".toList, "c:dPt".toList,
      "c:dLbls".toList, "c:trendline".toList, "c:errBars".toList, "c:cat".toList, "c:val".toList, "c:extLst".toList, "c:smooth".toList] : List Str).Nodup
    decide

theorem ser_secs {k : ChartKind} {o : SeriesOpts} {s : ChartSeries} (ho : o.Ok) (hg : SeriesGood U parses shown k.group s)
    (hf : SeriesFilled shown s) (i : Nat) : SecsOk (serSecs U parses k o i s) := by
  unfold serSecs
  refine secsOk_append (secsOk_append (secsOk_append (secsOk_append ?_ (pre_secs_ok ho k _)) ?_) ?_) (post_secs_ok ho k)
  · refine secsOk_cons (one_ok (valText_ok (by decide +kernel) (showNat_attrSafe _)) rfl) (secsOk_cons
      (one_ok (valText_ok (by decide +kernel) (showNat_attrSafe _)) rfl) (secsOk_cons (fun x hx => ⟨?_, seriesTitleTrees_tag _ x hx⟩) secsOk_nil))
    exact seriesTitleTrees_ok hg.title hf.title x hx
  · refine secsOk_cons (fun x hx => ⟨?_, errBarsTrees_tag _ _ x hx⟩) secsOk_nil
    rw [errBarsTrees_eq] at hx
    obtain ⟨e, he, rfl⟩ := List.mem_map.mp hx
    rcases err_mem he with he | he
    · exact errBarsTree_ok (hg.xErr e he) (hf.xErr e he)
    · exact errBarsTree_ok (hg.yErr e he) (hf.yErr e he)
  · have hd := dataTrees_ok hg hf
    rw [data_kids] at hd
    intro p hp x hx
    refine ⟨hd x (List.mem_flatMap.mpr ⟨p, hp, hx⟩), ?_⟩
    unfold dataSecs at hp
    split at hp
    · simp only [List.mem_cons, List.not_mem_nil, or_false] at hp
      rcases hp with rfl | rfl <;> (simp only [List.mem_cons, List.not_mem_nil, or_false] at hx; subst hx; rfl)
    · simp only [List.mem_cons, List.not_mem_nil, or_false] at hp
      rcases hp with rfl | rfl
      · dsimp only at hx
        split at hx
        · simp only [List.mem_cons, List.not_mem_nil, or_false] at hx; subst hx; rfl
        · cases hx
      · simp only [List.mem_cons, List.not_mem_nil, or_false] at hx; subst hx; rfl

/-- Looks up one of the sections of a series. -/
macro "ser_look" k:ident : tactic => `(tactic| (
  unfold serSecs SeriesOpts.preSecs dataSecs SeriesOpts.postSecs
  by_cases hg : ChartKind.group $k = .scatter
  · simp only [if_pos hg, List.cons_append, List.nil_append]
    simp (discharger := decide) only [assoc_ne, assoc_eq]
  · simp only [if_neg hg, List.cons_append, List.nil_append]
    simp (discharger := decide) only [assoc_ne, assoc_eq]))

/-- What is seen of a series. -/
structure SeriesShown (k : ChartKind) (n : Nat) (o : SeriesOpts) (s : SeriesLook) : Prop where
  format : FormatMeant (if k.group = .scatter then o.scatterFormat k else o.format) s.format
  marker : match o.marker with
    | none => s.marker = none
    | some m => if m.automatic = true then s.marker = none else ∃ x v, s.marker = some x ∧ m.symbolAttrs.lookup "val".toList = some v ∧
        x.symbol = some v ∧ x.size = (if m.size ≠ 0 then some (showNat m.size) else none) ∧ FormatMeant m.format x.format
  invert : k.group ≠ .scatter → s.invert = o.invert
  inverted : k.group ≠ .scatter → s.inverted = if o.invertColor.isAutoOrDefault = false then some (drawColour o.invertColor 0) else none
  points : Pairs (fun (p : CFormat × Nat) (q : Nat × FormatLook) => q.1 = p.2 ∧ FormatMeant p.1 q.2) (upTo n (·.hasFormatting) o.points) s.points
  labels : match o.label with
    | none => s.labels = none
    | some l => ∃ x, s.labels = some x ∧ LabelShown k.group false l x.all ∧
        Pairs (fun (p : CLabel × Nat) q => PointLabelShown k.group p.1 p.2 q) (upTo n (fun c => decide (c ≠ {})) o.customLabels) x.points
  trend : if o.trend.kind = .none then s.trend = none else ∃ x, s.trend = some x ∧ TrendShown o.trend x
  bars : Pairs (fun (e : CErrBars × Str) b => BarsShown e.1 e.2 b) (errList k.group o) s.bars
  smooth : s.smooth = o.smoothOn k

theorem inverted_read (c : Color) (h : c.isValid = true) :
    (match ((some (treeParts (invertExt c))).bind fun x => child "c:ext".toList x.2).bind fun x => child "c14:invertSolidFillFmt".toList x.2 with
      | none => some none
      | some x =>
        match child "c14:spPr".toList x.2 with
        | some p => readColourChild "a:solidFill".toList p.2
        | none => some none) = some (some (drawColour c 0)) := by
  unfold invertExt
  rw [Option.bind_some]
  simp only [treeParts]
  rw [child_head (t := "c:ext".toList) _ _ rfl, Option.bind_some]
  simp only [treeParts]
  rw [child_head (t := "c14:invertSolidFillFmt".toList) _ _ rfl]
  simp only [treeParts]
  rw [child_head (t := "c14:spPr".toList) _ _ rfl]
  simp only [treeParts]
  exact (colourChild_if (t := "a:solidFill".toList) (b := True) h [] rfl).trans rfl

set_option maxHeartbeats 2000000 in
theorem series_read {k : ChartKind} {o : SeriesOpts} {s : ChartSeries} (hi : IsSeries k o s) (ho : o.Ok)
    (hg : SeriesGood U parses shown k.group s) (hf : SeriesFilled shown s) (i : Nat) :
    ∃ q, readSeriesLook (treeParts (seriesTree U parses k.group i s)) = some q ∧ SeriesShown k s.values.range.points o q := by
  rw [ser_kids hi]
  have hs := ser_secs ho hg hf i
  have hn := ser_nodup U parses k o i s
  obtain ⟨f, hf1, hf2⟩ := cFormat_in hs hn (f := if k.group = .scatter then o.scatterFormat k else o.format)
    (by ser_look k) (by
      split
      · exact scatterFormat_ok ho.format k
      · exact ho.format)
  have hlm : (serSecs U parses k o i s).lookup "c:marker".toList = some (markerTrees o.marker) := by ser_look k
  have em : ∃ x, optChild readMarkerLook "c:marker".toList (toNodes (secTrees (serSecs U parses k o i s))) = some x ∧
      (match o.marker with
      | none => x = none
      | some m => if m.automatic = true then x = none else ∃ y v, x = some y ∧ m.symbolAttrs.lookup "val".toList = some v ∧
        y.symbol = some v ∧ y.size = (if m.size ≠ 0 then some (showNat m.size) else none) ∧ FormatMeant m.format y.format) := by
    cases e : o.marker with
    | none => rw [e] at hlm; exact ⟨none, sec_opt_none hs hn (by rw [hlm]; rfl), rfl⟩
    | some m =>
      dsimp only
      rw [e] at hlm
      unfold markerTrees at hlm
      dsimp only at hlm
      by_cases ha : m.automatic = true
      · rw [if_pos ha] at hlm
        exact ⟨none, sec_opt_none hs hn (by rw [hlm]; rfl), by rw [if_pos ha]⟩
      · rw [if_neg ha] at hlm
        obtain ⟨h1, h2⟩ := markerOk_parts (ho.marker m e)
        obtain ⟨v, hv⟩ := h2.resolve_left ha
        obtain ⟨y, hy, a, b, c⟩ := marker_read h1 hv
        refine ⟨some y, sec_opt_one hs hn hlm hy, ?_⟩
        rw [if_neg ha]
        exact ⟨y, v, rfl, hv, a, b, c⟩
  obtain ⟨mk, hm1, hm2⟩ := em
  have hle : (serSecs U parses k o i s).lookup "c:extLst".toList =
      some (if k.group ≠ .scatter ∧ o.invertColor.isAutoOrDefault = false then [invertExt o.invertColor] else []) := by ser_look k
  have ei : readInverted (toNodes (secTrees (serSecs U parses k o i s))) =
      some (if k.group ≠ .scatter ∧ o.invertColor.isAutoOrDefault = false then some (drawColour o.invertColor 0) else none) := by
    have hc : child "c:extLst".toList (toNodes (secTrees (serSecs U parses k o i s))) = _ := secs_child hs hn "c:extLst".toList
    unfold readInverted
    rw [hc, hle]
    by_cases e : k.group ≠ .scatter ∧ o.invertColor.isAutoOrDefault = false
    · rw [if_pos e, if_pos e]
      exact inverted_read _ ho.inverted
    · rw [if_neg e, if_neg e]; rfl
  have hlp : (serSecs U parses k o i s).lookup "c:dPt".toList = some (pointTrees k.group s.values.range.points o.points) := by ser_look k
  obtain ⟨ps, hp1, hp2⟩ := pairs_mapM (tree := fun p : CFormat × Nat => pointTree k.group p.2 p.1) (read := readPointLook)
    (R := fun (p : CFormat × Nat) (q : Nat × FormatLook) => q.1 = p.2 ∧ FormatMeant p.1 q.2)
    (upTo s.values.range.points (·.hasFormatting) o.points) (fun p hp => point_read _ _ (ho.points _ (mem_upTo hp)))
  have ep : (elems "c:dPt".toList (toNodes (secTrees (serSecs U parses k o i s)))).mapM readPointLook = some ps := by
    rw [sec_elems hs hn (l := pointTrees k.group s.values.range.points o.points) (by rw [hlp]; rfl)]
    exact hp1
  have hll : (serSecs U parses k o i s).lookup "c:dLbls".toList =
      some (labelTrees k.group s.values.range.points o.label o.customLabels) := by ser_look k
  have el : ∃ x, optChild readLabels "c:dLbls".toList (toNodes (secTrees (serSecs U parses k o i s))) = some x ∧
      (match o.label with
      | none => x = none
      | some l => ∃ y, x = some y ∧ LabelShown k.group false l y.all ∧
        Pairs (fun (p : CLabel × Nat) q => PointLabelShown k.group p.1 p.2 q)
          (upTo s.values.range.points (fun c => decide (c ≠ {})) o.customLabels) y.points) := by
    cases e : o.label with
    | none => rw [e] at hll; exact ⟨none, sec_opt_none hs hn (by rw [hll]; rfl), rfl⟩
    | some l =>
      rw [e] at hll
      obtain ⟨y, hy, a, b⟩ := labels_read (g := k.group) (n := s.values.range.points) (l := l) (ls := o.customLabels)
        ⟨ho.label l e, labelOk_sep (ho.label l e)⟩ (fun x hx => ⟨ho.custom x hx, labelOk_sep (ho.custom x hx)⟩)
      exact ⟨some y, sec_opt_one hs hn hll hy, y, rfl, a, b⟩
  obtain ⟨lb, hl1, hl2⟩ := el
  have hlt : (serSecs U parses k o i s).lookup "c:trendline".toList = some o.trend.trees := by ser_look k
  have et : ∃ x, optChild readTrend "c:trendline".toList (toNodes (secTrees (serSecs U parses k o i s))) = some x ∧
      (if o.trend.kind = .none then x = none else ∃ y, x = some y ∧ TrendShown o.trend y) := by
    unfold CTrend.trees at hlt
    by_cases e : o.trend.kind = .none
    · rw [if_neg (fun h => h e)] at hlt
      exact ⟨none, sec_opt_none hs hn (by rw [hlt]; rfl), by rw [if_pos e]⟩
    · rw [if_pos e] at hlt
      obtain ⟨y, hy, a⟩ := trend_read ho.trend
      exact ⟨some y, sec_opt_one hs hn hlt hy, by rw [if_neg e]; exact ⟨y, rfl, a⟩⟩
  obtain ⟨td, ht1, ht2⟩ := et
  have hlb : (serSecs U parses k o i s).lookup "c:errBars".toList = some (errBarsTrees U parses k.group s) := by ser_look k
  obtain ⟨bs, hb1, hb2⟩ := pairs_mapM2 (tree := errBarsTree U parses) (read := readBars)
    (R := fun (e : CErrBars × Str) b => BarsShown e.1 e.2 b) (errList_pairs hi) (fun p hp x hx hS => by
      obtain ⟨hm1, hm2⟩ := mem_errList hp
      have hok : barsOk p.1 = true := hm1.elim (ho.xErr _) (ho.yErr _)
      rcases err_mem hx with hx | hx
      · exact bars_read hS hok hm2 (hg.xErr x hx) (hf.xErr x hx)
      · exact bars_read hS hok hm2 (hg.yErr x hx) (hf.yErr x hx))
  have eb : (elems "c:errBars".toList (toNodes (secTrees (serSecs U parses k o i s)))).mapM readBars = some bs := by
    rw [sec_elems hs hn (l := errBarsTrees U parses k.group s) (by rw [hlb]; rfl), errBarsTrees_eq]
    exact hb1
  show ∃ q, readSeriesLook ([], toNodes (secTrees (serSecs U parses k o i s))) = some q ∧ _
  unfold readSeriesLook
  dsimp only
  rw [hf1, hm1, ei, ep, hl1, ht1, eb]
  dsimp only
  refine ⟨_, rfl, hf2, hm2, fun e => ?_, fun e => ?_, hp2, hl2, ht2, hb2, ?_⟩
  · exact sec_on hs hn (by
      unfold serSecs SeriesOpts.preSecs dataSecs SeriesOpts.postSecs
      simp only [if_neg e, List.cons_append, List.nil_append]
      simp (discharger := decide) only [assoc_ne, assoc_eq])
  · dsimp only
    by_cases h : o.invertColor.isAutoOrDefault = false
    · rw [if_pos ⟨e, h⟩, if_pos h]
    · rw [if_neg (fun x => h x.2), if_neg h]
  · exact sec_on hs hn (by ser_look k)

end Verif
