import Verif.Props.ChartGroups
/-!
C76: a chart as a whole shows what the calls on it asked for.
-/
namespace Verif
open Spec

variable {U : Unicode} {parses : Str → Bool} {shown : Text → Nat → Nat → Content}

/-! ### The fields of a chart after calls -/

section
variable (calls : List ChartCall)

theorem opts_table : (chartOpts calls).table = lastSaid saysDataTable none calls :=
  fold_field (exec := ChartOpts.exec) ChartOpts.table saysDataTable (by chart_cases) {} calls

theorem opts_empty : (chartOpts calls).empty = lastSaid saysEmpty none calls :=
  fold_field (exec := ChartOpts.exec) ChartOpts.empty saysEmpty (by chart_cases) {} calls

theorem opts_area : (chartOpts calls).areaFormat = lastSaid saysAreaFormat {} calls :=
  fold_field (exec := ChartOpts.exec) ChartOpts.areaFormat saysAreaFormat (by chart_cases) {} calls

theorem opts_plot : (chartOpts calls).plotFormat = lastSaid saysPlotFormat {} calls :=
  fold_field (exec := ChartOpts.exec) ChartOpts.plotFormat saysPlotFormat (by chart_cases) {} calls

theorem opts_layout : layoutSeen (chartOpts calls).plotLayout = layoutMeant (lastSaid saysPlotLayout {} calls) true := by
  have h := fold_field (exec := ChartOpts.exec) (fun o => layoutSeen o.plotLayout) (fun c => (saysPlotLayout c).map fun l => layoutMeant l true)
    (by chart_cases) {} calls
  rw [show layoutSeen ({} : ChartOpts).plotLayout = layoutMeant {} true from rfl,
    lastSaid_map (fun l => layoutMeant l true) saysPlotLayout {}] at h
  exact h

theorem opts_na : (chartOpts calls).naEmpty = decide (ChartCall.naEmpty ∈ calls) :=
  fold_mem (exec := ChartOpts.exec) ChartOpts.naEmpty ChartCall.naEmpty (by
    intro s c; cases c <;> first | (simp [ChartOpts.exec]; done) | (simp only [ChartOpts.exec]; split <;> simp)) {} calls rfl

theorem opts_hidden : (chartOpts calls).hiddenData = decide (ChartCall.hiddenData ∈ calls) :=
  fold_mem (exec := ChartOpts.exec) ChartOpts.hiddenData ChartCall.hiddenData (by
    intro s c; cases c <;> first | (simp [ChartOpts.exec]; done) | (simp only [ChartOpts.exec]; split <;> simp)) {} calls rfl

theorem opts_legend : (chartOpts calls).legend = (legendCalls calls).foldl CLegend.exec {} := by
  have : ∀ o : ChartOpts, (calls.foldl ChartOpts.exec o).legend = (legendCalls calls).foldl CLegend.exec o.legend := by
    induction calls with
    | nil => exact fun o => rfl
    | cons c calls ih =>
      intro o
      rw [List.foldl_cons, ih]
      cases c with
      | legend x => rfl
      | _ => first | rfl | (simp only [ChartOpts.exec]; split <;> rfl)
  exact this {}

theorem mem_legendCalls (x : LegendCall) : x ∈ legendCalls calls ↔ ChartCall.legend x ∈ calls := by
  unfold legendCalls
  rw [List.mem_filterMap]
  constructor
  · rintro ⟨c, hc, h⟩
    cases c with
    | legend y => injection h with h; subst h; exact hc
    | _ => cases h
  · exact fun h => ⟨_, h, rfl⟩

end

section
variable (calls : List LegendCall)

theorem legend_spot : (calls.foldl CLegend.exec {}).spot = lastSaid saysLegendSpot .right calls :=
  fold_field (exec := CLegend.exec) CLegend.spot saysLegendSpot (fun s c => by cases c <;> rfl) {} calls

theorem legend_overlay : (calls.foldl CLegend.exec {}).overlay = lastSaid saysLegendOverlay false calls :=
  fold_field (exec := CLegend.exec) CLegend.overlay saysLegendOverlay (fun s c => by cases c <;> rfl) {} calls

theorem legend_format : (calls.foldl CLegend.exec {}).format = lastSaid saysLegendFormat {} calls :=
  fold_field (exec := CLegend.exec) CLegend.format saysLegendFormat (fun s c => by cases c <;> rfl) {} calls

theorem legend_font : (calls.foldl CLegend.exec {}).font = lastSaid saysLegendFont none calls :=
  fold_field (exec := CLegend.exec) CLegend.font saysLegendFont (fun s c => by cases c <;> rfl) {} calls

theorem legend_deleted : (calls.foldl CLegend.exec {}).deleted = lastSaid saysDeleted [] calls :=
  fold_field (exec := CLegend.exec) CLegend.deleted saysDeleted (fun s c => by cases c <;> rfl) {} calls

theorem legend_layout : layoutSeen (calls.foldl CLegend.exec {}).layout =
    layoutMeant (lastSaid saysLegendLayout {} calls) (lastSaid saysLegendLayout {} calls).hasInner := by
  have h := fold_field (exec := CLegend.exec) (fun g => layoutSeen g.layout) (fun c => (saysLegendLayout c).map fun l => layoutMeant l l.hasInner)
    (fun s c => by cases c <;> rfl) {} calls
  rw [show layoutSeen ({} : CLegend).layout = layoutMeant {} ({} : CLayout).hasInner from rfl,
    lastSaid_map (fun l => layoutMeant l l.hasInner) saysLegendLayout {}] at h
  exact h

theorem legend_hidden : (calls.foldl CLegend.exec {}).hidden = decide (LegendCall.hidden ∈ calls) :=
  fold_mem (exec := CLegend.exec) CLegend.hidden LegendCall.hidden (fun s c => by cases c <;> simp [CLegend.exec]) {} calls rfl

end

section
variable (calls : List DTableCall)

theorem dtable_horizontal : (newTable calls).horizontal = lastSaid saysHorizontal true calls :=
  fold_field (exec := CTable.exec) CTable.horizontal saysHorizontal (fun s c => by cases c <;> rfl) {} calls

theorem dtable_vertical : (newTable calls).vertical = lastSaid saysVertical true calls :=
  fold_field (exec := CTable.exec) CTable.vertical saysVertical (fun s c => by cases c <;> rfl) {} calls

theorem dtable_outline : (newTable calls).outline = lastSaid saysOutline true calls :=
  fold_field (exec := CTable.exec) CTable.outline saysOutline (fun s c => by cases c <;> rfl) {} calls

theorem dtable_keys : (newTable calls).keys = lastSaid saysKeys false calls :=
  fold_field (exec := CTable.exec) CTable.keys saysKeys (fun s c => by cases c <;> rfl) {} calls

theorem dtable_format : (newTable calls).format = lastSaid saysTableFormat {} calls :=
  fold_field (exec := CTable.exec) CTable.format saysTableFormat (fun s c => by cases c <;> rfl) {} calls

theorem dtable_font : (newTable calls).font = lastSaid saysTableFont none calls :=
  fold_field (exec := CTable.exec) CTable.font saysTableFont (fun s c => by cases c <;> rfl) {} calls

end

/-! ### The entries of the legend -/

theorem given_deleted (g : GivenSeries) (k : ChartKind) : (g.opts k).deleted = lastSaid saysGone false g.calls := by
  have hf : ∀ (s : SeriesOpts) c, (s.exec c).deleted = (saysGone c).getD s.deleted := by
    intro s c
    cases c <;> first | rfl | (simp only [SeriesOpts.exec]; split <;> rfl)
  have hp : ∀ s : SeriesOpts, (s.prepare k).deleted = s.deleted := by
    intro s
    unfold SeriesOpts.prepare
    dsimp only
    split <;> split <;> rfl
  unfold GivenSeries.opts
  split
  · unfold pushedSeries
    rw [hp]
    exact fold_field (exec := SeriesOpts.exec) SeriesOpts.deleted saysGone hf {} g.calls
  · unfold addedSeries
    rw [fold_field (exec := SeriesOpts.exec) SeriesOpts.deleted saysGone hf, hp]

theorem given_trend (g : GivenSeries) (k : ChartKind) : (g.opts k).trend = (lastSaid saysTrend none g.calls).getD {} := by
  unfold GivenSeries.opts
  split
  · have h := fold_field (exec := SeriesOpts.exec) SeriesOpts.trend (fun c => (saysTrend c).map (·.getD {})) (by series_cases) {} g.calls
    rw [show ({} : SeriesOpts).trend = (none : Option CTrend).getD {} from rfl,
      lastSaid_map (fun o : Option CTrend => o.getD {}) saysTrend none] at h
    unfold pushedSeries
    rw [← h]
    unfold SeriesOpts.prepare
    dsimp only
    split <;> split <;> rfl
  · exact ser_trend k g.calls

/-- The positions of `true`, from a first one. -/
def trueFrom (i : Nat) (l : List Bool) : List Nat := ((l.zipIdx i).filter (·.1)).map (·.2)

theorem trueFrom_cons (i : Nat) (b : Bool) (l : List Bool) : trueFrom i (b :: l) = (if b then [i] else []) ++ trueFrom (i + 1) l := by
  unfold trueFrom
  rw [List.zipIdx_cons]
  cases b <;> rfl

theorem trueFrom_append (i : Nat) (a b : List Bool) : trueFrom i (a ++ b) = trueFrom i a ++ trueFrom (i + a.length) b := by
  unfold trueFrom
  rw [List.zipIdx_append, List.filter_append, List.map_append]

theorem trueFrom_none (i : Nat) (l : List Bool) (h : l.all (!·) = true) : trueFrom i l = [] := by
  induction l generalizing i with
  | nil => rfl
  | cons b l ih =>
    rw [List.all_cons, Bool.and_eq_true] at h
    rw [trueFrom_cons, ih _ h.2]
    cases b with
    | false => rfl
    | true => exact absurd h.1 (by decide)

theorem deleted_eq (k : ChartKind) (ss : List GivenSeries) (i : Nat) :
    deletedFrom i (ss.map (·.opts k)) = trueFrom i (ss.map fun g => lastSaid saysGone false g.calls) := by
  induction ss generalizing i with
  | nil => rfl
  | cons g ss ih =>
    rw [List.map_cons, List.map_cons, deletedFrom, trueFrom_cons, ih, given_deleted]

theorem trends_eq (k : ChartKind) (ss : List GivenSeries) (i : Nat) :
    deletedTrends i (ss.map (·.opts k)) = trueFrom i ((ss.filter fun g => (((lastSaid saysTrend none g.calls).getD {}).kind != .none)).map
      fun g => ((lastSaid saysTrend none g.calls).getD {}).deleted) := by
  induction ss generalizing i with
  | nil => rfl
  | cons g ss ih =>
    rw [List.map_cons, deletedTrends, given_trend, List.filter_cons]
    by_cases h : ((lastSaid saysTrend none g.calls).getD {}).kind = .none
    · rw [if_pos h, ih, if_neg (by rw [h]; decide)]
    · have hb : (((lastSaid saysTrend none g.calls).getD {}).kind != .none) = true := by simpa using h
      rw [if_neg h, ih, if_pos hb, List.map_cons, trueFrom_cons]

theorem bits_eq (k : ChartKind) (ss : List GivenSeries) :
    deletedFrom 0 (ss.map (·.opts k)) ++ deletedTrends (ss.map (·.opts k)).length (ss.map (·.opts k)) = trueAt (legendBits ss) := by
  rw [deleted_eq, trends_eq]
  show _ = trueFrom 0 (legendBits ss)
  unfold legendBits
  rw [trueFrom_append, List.length_map, List.length_map, Nat.zero_add]

theorem bits_none {a b : List GivenSeries} (h : ∀ g ∈ a, g ∈ b) (hb : (legendBits b).all (!·) = true) : (legendBits a).all (!·) = true := by
  unfold legendBits at hb ⊢
  rw [List.all_append, Bool.and_eq_true, List.all_map, List.all_map, List.all_eq_true, List.all_eq_true] at hb ⊢
  exact ⟨fun g hg => hb.1 g (h g hg), fun g hg => hb.2 g (List.mem_filter.mpr ⟨h g (List.mem_filter.mp hg).1, (List.mem_filter.mp hg).2⟩)⟩

theorem mem_inLegend {ss : List GivenSeries} (second : Option SecondChart) : ∀ g ∈ ss, g ∈ inLegend ss second := by
  intro g hg
  unfold inLegend
  refine List.mem_append_left _ (List.mem_append.mpr ?_)
  cases e : g.data.secondary
  · exact Or.inl (List.mem_filter.mpr ⟨hg, by rw [e]; rfl⟩)
  · exact Or.inr (List.mem_filter.mpr ⟨hg, by rw [e]⟩)

theorem entries_eq {calls : List LegendCall} {ss : List GivenSeries} {second : Option SecondChart} (h : LegendClear calls ss second) (k : ChartKind) :
    (calls.foldl CLegend.exec {}).entries (ss.map (·.opts k)) = entriesAsked calls (inLegend ss second) := by
  unfold CLegend.entries entriesAsked
  rw [legend_deleted, bits_eq]
  by_cases hd : lastSaid saysDeleted [] calls = []
  · rw [if_neg (fun h => h hd), if_neg (fun h => h hd)]
    rcases h with h | h | h
    · exact absurd hd h
    · show trueFrom 0 _ = trueFrom 0 _
      rw [trueFrom_none 0 _ h, trueFrom_none 0 _ (bits_none (mem_inLegend second) h)]
    · rw [h]
  · rw [if_pos hd, if_pos hd]

/-! ### The legend -/

/-- The parts of a legend can be written. -/
structure LegendFine (g : CLegend) : Prop where
  layout : cLayoutOk g.layout = true
  format : cFormatOk g.format = true
  font : ∀ f, g.font = some f → cFontOk f = true

theorem legend_fine {calls : List LegendCall} (h : ∀ c ∈ calls, legendCallOk c = true) : LegendFine (calls.foldl CLegend.exec {}) := by
  have : ∀ g : CLegend, LegendFine g → LegendFine (calls.foldl CLegend.exec g) := by
    induction calls with
    | nil => exact fun g h => h
    | cons c calls ih =>
      intro g hg
      refine ih (fun x hx => h x (List.mem_cons_of_mem _ hx)) _ ?_
      have hc := h c List.mem_cons_self
      cases c with
      | layout l => exact ⟨hc, hg.format, hg.font⟩
      | format f => exact ⟨hg.layout, hc, hg.font⟩
      | font f => exact ⟨hg.layout, hg.format, fun x hx => by injection hx with hx; subst hx; exact hc⟩
      | _ => exact ⟨hg.layout, hg.format, hg.font⟩
  exact this {} ⟨by decide +kernel, by decide +kernel, nofun⟩

theorem entry_ok (i : Nat) : treeOk (entryTree i) = true :=
  treeOk_node (by decide +kernel) attrsGood_nil (ok_cons (valText_ok (by decide +kernel) (showNat_attrSafe _)) (ok_single (by decide +kernel)))

theorem rtl_ok {f : CFont} (h : cFontOk f = true) (b : Option Bool) : cFontOk { f with rightToLeft := b } = true := h

theorem fontFor_ok {g : CLegend} (h : LegendFine g) (k : ChartKind) {f : CFont} (hf : g.fontFor k = some f) : cFontOk f = true := by
  unfold CLegend.fontFor at hf
  split at hf
  · injection hf with hf
    subst hf
    refine rtl_ok ?_ _
    cases e : g.font with
    | none => decide +kernel
    | some f => exact h.font f e
  · exact h.font f hf

theorem maybe_txPr {o : Option CFont} (h : ∀ f, o = some f → cFontOk f = true) :
    ∀ x ∈ (o.map (·.txPrTree false)).toList, treeOk x = true ∧ treeTag x = "c:txPr".toList := by
  cases e : o with
  | none => intro x hx; cases hx
  | some f =>
    intro x hx
    have hx : x = f.txPrTree false := by
      rw [Option.map_some, Option.toList_some, List.mem_singleton] at hx
      exact hx
    subst hx
    exact ⟨txPr_ok (h f e) false, rfl⟩

theorem maybe_txPr_look {secs : List (Str × List Tree)} (hs : SecsOk secs) (hn : (secs.map Prod.fst).Nodup) {o : Option CFont}
    (h : ∀ f, o = some f → cFontOk f = true) (hl : secs.lookup "c:txPr".toList = some (o.map (·.txPrTree false)).toList) :
    optChild readTextLook "c:txPr".toList (toNodes (secTrees secs)) = some (o.map (textSeen false)) := by
  cases e : o with
  | none => rw [e] at hl; exact sec_opt_none hs hn (by rw [hl]; rfl)
  | some f => rw [e] at hl; exact sec_opt_one hs hn hl (txPr_read (h f e) false)

theorem legend_secs {g : CLegend} (h : LegendFine g) (k : ChartKind) (ss : List SeriesOpts) : SecsOk (g.secs k ss) := by
  unfold CLegend.secs
  refine secsOk_cons (one_ok (valText_ok (by decide +kernel) (by cases g.spot <;> decide)) rfl) (secsOk_cons ?_
    (secsOk_cons (one_ok (layout_ok h.layout) (layout_tag _)) (secsOk_cons (cFormat_ok h.format)
    (secsOk_cons (oneIf_ok (by decide +kernel) _) (secsOk_cons (maybe_txPr fun f hf => fontFor_ok h k hf) secsOk_nil)))))
  intro x hx
  obtain ⟨i, _, rfl⟩ := List.mem_map.mp hx
  exact ⟨entry_ok i, rfl⟩

theorem legend_nodup (g : CLegend) (k : ChartKind) (ss : List SeriesOpts) : ((g.secs k ss).map Prod.fst).Nodup := by
  show (["c:legendPos".toList, "c:legendEntry".toList, "c:layout".toList, "c:spPr".toList, "c:overlay".toList, "c:txPr".toList] : List Str).Nodup
  decide

theorem legendSpot_text (p : LegendSpot) : p.text = legendName p := by cases p <;> rfl

theorem layout_sec {secs : List (Str × List Tree)} (hs : SecsOk secs) (hn : (secs.map Prod.fst).Nodup) {l : CLayout} (h : cLayoutOk l = true)
    (hl : secs.lookup "c:layout".toList = some [l.tree]) : readLayoutIn (toNodes (secTrees secs)) = some (layoutSeen l) := by
  unfold readLayoutIn
  rw [sec_opt_one hs hn hl (layout_read h)]
  rfl

theorem entries_read (l : List Nat) : ((l.map entryTree).map treeParts).mapM readEntry = some l := by
  rw [List.map_map, mapM_map]
  have := mapM_some_of_forall (f := fun i => readEntry ((treeParts ∘ entryTree) i)) (g := fun i => i) (l := l) (fun i _ => by
    show readEntry ([], toNodes (valText "c:idx".toList (showNat i) :: [valOne "c:delete".toList])) = some i
    unfold readEntry
    rw [if_pos, idx_read]
    unfold cOn cVal
    dsimp only
    rw [child_skip (valText "c:idx".toList (showNat i)) _ (by show "c:idx".toList ≠ _; decide)]
    decide +kernel)
  rwa [List.map_id'] at this

theorem legend_read {calls : List LegendCall} {ss : List GivenSeries} {second : Option SecondChart} (hc : ∀ c ∈ calls, legendCallOk c = true)
    (h : LegendClear calls ss second) (k : ChartKind) :
    ∃ q, readLegend (treeParts (.node "c:legend".toList [] (secTrees ((calls.foldl CLegend.exec {}).secs k (ss.map (·.opts k)))))) = some q ∧
      LegendMeant calls (inLegend ss second) q := by
  have fine := legend_fine hc
  have hs := legend_secs fine k (ss.map (·.opts k))
  have hn := legend_nodup (calls.foldl CLegend.exec {}) k (ss.map (·.opts k))
  generalize hg : calls.foldl CLegend.exec {} = g at fine hs hn
  obtain ⟨f, f1, f2⟩ := cFormat_in hs hn (f := g.format) (by unfold CLegend.secs; sec_look) fine.format
  have e1 : cVal "c:legendPos".toList (toNodes (secTrees (g.secs k (ss.map (·.opts k))))) = some g.spot.text :=
    sec_one hs hn (by unfold CLegend.secs; sec_look)
  have e2 : elems "c:legendEntry".toList (toNodes (secTrees (g.secs k (ss.map (·.opts k))))) =
      ((g.entries (ss.map (·.opts k))).map entryTree).map treeParts := sec_elems hs hn (by unfold CLegend.secs; sec_look; rfl)
  have e3 := layout_sec hs hn fine.layout (by unfold CLegend.secs; sec_look)
  have e4 : cOn "c:overlay".toList (toNodes (secTrees (g.secs k (ss.map (·.opts k))))) = g.overlay :=
    sec_on hs hn (by unfold CLegend.secs; sec_look)
  have e5 := maybe_txPr_look hs hn (o := g.fontFor k) (fun f hf => fontFor_ok fine k hf) (by unfold CLegend.secs; sec_look)
  refine ⟨⟨some g.spot.text, g.entries (ss.map (·.opts k)), layoutSeen g.layout, g.overlay, f, (g.fontFor k).map (textSeen false)⟩, ?_, ?_⟩
  · show readLegend ([], toNodes (secTrees (g.secs k (ss.map (·.opts k))))) = _
    unfold readLegend
    dsimp only
    rw [e1, e2, e3, e4, e5, f1, entries_read]
  · subst hg
    refine ⟨?_, entries_eq h k, legend_layout calls, legend_overlay calls, ?_, ?_⟩
    · rw [← legend_spot, ← legendSpot_text]
    · rw [← legend_format]; exact f2
    · rw [← legend_font]
      have plain : ∀ f : CFont, cFontOk f = true → ∀ b, b.getD false = f.rightToLeft.getD false →
          PlainTextMeant f (textSeen false { f with rightToLeft := b }) := by
        intro f hf b hb
        have h3 : f.strikethrough = false := (cFontOk_parts hf).2.2.1
        exact ⟨rfl, ⟨rfl, rfl, rfl, rfl, h3.symm, rfl, rfl, rfl, rfl⟩, hb⟩
      unfold MaybeTextMeant CLegend.fontFor
      cases e : (calls.foldl CLegend.exec {}).font with
      | none =>
        dsimp only
        intro q hq
        split at hq
        · injection hq with hq
          subst hq
          exact plain {} (by decide +kernel) _ rfl
        · cases hq
      | some f =>
        have hf := fine.font f e
        dsimp only
        split
        · exact ⟨_, rfl, plain f hf _ rfl⟩
        · exact ⟨_, rfl, plain f hf f.rightToLeft rfl⟩

/-! ### The data table -/

theorem dTableOk_parts {t : CTable} (h : dTableOk t = true) : cFormatOk t.format = true ∧ ∀ f, t.font = some f → cFontOk f = true := by
  unfold dTableOk at h
  rw [Bool.and_eq_true] at h
  refine ⟨h.1, fun f hf => ?_⟩
  have := h.2
  rw [hf] at this
  exact this

theorem dtable_secs {t : CTable} (h : dTableOk t = true) : SecsOk t.secs := by
  obtain ⟨h1, h2⟩ := dTableOk_parts h
  unfold CTable.secs
  exact secsOk_cons (oneIf_ok (by decide +kernel) _) (secsOk_cons (oneIf_ok (by decide +kernel) _) (secsOk_cons (oneIf_ok (by decide +kernel) _)
    (secsOk_cons (oneIf_ok (by decide +kernel) _) (secsOk_cons (cFormat_ok h1) (secsOk_cons (maybe_txPr h2) secsOk_nil)))))

theorem dtable_nodup (t : CTable) : (t.secs.map Prod.fst).Nodup := by
  show (["c:showHorzBorder".toList, "c:showVertBorder".toList, "c:showOutline".toList, "c:showKeys".toList, "c:spPr".toList,
    "c:txPr".toList] : List Str).Nodup
  decide

theorem dtable_ok {t : CTable} (h : dTableOk t = true) : treeOk t.tree = true :=
  treeOk_node (by decide +kernel) attrsGood_nil (ok_of_secs (dtable_secs h))

theorem dtable_read {t : CTable} (h : dTableOk t = true) :
    ∃ f, readDataTable (treeParts t.tree) =
      some ⟨t.horizontal, t.vertical, t.outline, t.keys, f, t.font.map (textSeen false)⟩ ∧ FormatMeant t.format f := by
  obtain ⟨h1, h2⟩ := dTableOk_parts h
  have hs := dtable_secs h
  have hn := dtable_nodup t
  obtain ⟨f, f1, f2⟩ := cFormat_in hs hn (f := t.format) (by unfold CTable.secs; sec_look) h1
  have e1 : cOn "c:showHorzBorder".toList (toNodes (secTrees t.secs)) = t.horizontal := sec_on hs hn (by unfold CTable.secs; sec_look)
  have e2 : cOn "c:showVertBorder".toList (toNodes (secTrees t.secs)) = t.vertical := sec_on hs hn (by unfold CTable.secs; sec_look)
  have e3 : cOn "c:showOutline".toList (toNodes (secTrees t.secs)) = t.outline := sec_on hs hn (by unfold CTable.secs; sec_look)
  have e4 : cOn "c:showKeys".toList (toNodes (secTrees t.secs)) = t.keys := sec_on hs hn (by unfold CTable.secs; sec_look)
  have e5 := maybe_txPr_look hs hn (o := t.font) h2 (by unfold CTable.secs; sec_look)
  refine ⟨f, ?_, f2⟩
  show readDataTable ([], toNodes (secTrees t.secs)) = _
  unfold readDataTable
  dsimp only
  rw [f1, e1, e2, e3, e4, e5]

theorem dtable_meant {calls : List DTableCall} (h : dTableOk (newTable calls) = true) {f : FormatLook} (hf : FormatMeant (newTable calls).format f) :
    DataTableMeant calls ⟨(newTable calls).horizontal, (newTable calls).vertical, (newTable calls).outline, (newTable calls).keys, f,
      (newTable calls).font.map (textSeen false)⟩ := by
  obtain ⟨_, h2⟩ := dTableOk_parts h
  refine ⟨dtable_horizontal calls, dtable_vertical calls, dtable_outline calls, dtable_keys calls, by rw [← dtable_format]; exact hf, ?_⟩
  rw [← dtable_font]
  unfold MaybeTextMeant
  cases e : (newTable calls).font with
  | none => intro q hq; cases hq
  | some f =>
    have h3 : f.strikethrough = false := (cFontOk_parts (h2 f e)).2.2.1
    exact ⟨_, rfl, rfl, ⟨rfl, rfl, rfl, rfl, h3.symm, rfl, rfl, rfl, rfl⟩, rfl⟩

/-! ### The parts of a chart -/

/-- The parts of a chart can be written. -/
structure WholeFine (o : ChartOpts) : Prop where
  area : cFormatOk o.areaFormat = true
  plot : cFormatOk o.plotFormat = true
  layout : cLayoutOk o.plotLayout = true
  table : ∀ t, o.table = some t → dTableOk t = true
  legend : LegendFine o.legend

theorem whole_fine {calls : List ChartCall} (h : ∀ c ∈ calls, chartCallOk c = true) : WholeFine (chartOpts calls) := by
  refine ⟨?_, ?_, ?_, ?_, ?_⟩
  · rw [opts_area]
    exact said_ok h fun c a e hc => by cases c <;> first | (cases e; done) | (cases e; exact hc)
  · rw [opts_plot]
    exact said_ok h fun c a e hc => by cases c <;> first | (cases e; done) | (cases e; exact hc)
  · have := fold_field (exec := ChartOpts.exec) (fun o => cLayoutOk o.plotLayout) (fun c => (saysPlotLayout c).map cLayoutOk)
      (by chart_cases) {} calls
    rw [show cLayoutOk ({} : ChartOpts).plotLayout = true by decide +kernel] at this
    refine this.trans (lastSaid_all _ _ _ (fun b => b = true) rfl fun c hc b hb => ?_)
    have := h c hc
    cases c <;> first | (cases hb; done) | (cases hb; exact this)
  · intro t ht
    rw [opts_table] at ht
    obtain ⟨c, hc, e⟩ := said_mem ht
    have := h c hc
    cases c <;> first | (cases e; done) | (cases e; exact this)
  · rw [opts_legend]
    exact legend_fine fun c hc => h _ ((mem_legendCalls calls c).mp hc)

theorem area_secs {o : ChartOpts} (h : WholeFine o) : SecsOk o.areaSecs := by
  unfold ChartOpts.areaSecs
  refine secsOk_cons (fun x hx => ?_) (secsOk_cons (cFormat_ok h.plot) secsOk_nil)
  cases e : o.table with
  | none => rw [e] at hx; cases hx
  | some t =>
    rw [e] at hx
    obtain rfl : x = t.tree := by simpa using hx
    exact ⟨dtable_ok (h.table t e), rfl⟩

theorem naExt_ok : treeOk naExt = true := by decide +kernel

theorem chart_secs {o : ChartOpts} (h : WholeFine o) (k : ChartKind) (ss : List SeriesOpts) : SecsOk (o.chartSecs k ss) := by
  unfold ChartOpts.chartSecs
  refine secsOk_cons (fun x hx => ?_) (secsOk_cons (oneIf_ok (by decide +kernel) _) (secsOk_cons (optVal_ok (by decide +kernel) fun v hv => ?_)
    (secsOk_cons (if_ok naExt_ok rfl) secsOk_nil)))
  · unfold CLegend.trees at hx
    split at hx
    · cases hx
    · obtain rfl := List.mem_singleton.mp hx
      exact ⟨treeOk_node (by decide +kernel) attrsGood_nil (ok_of_secs (legend_secs h.legend k ss)), rfl⟩
  · cases e : o.empty with
    | none => rw [e] at hv; cases hv
    | some x =>
      rw [e] at hv
      cases hv
      cases x <;> decide

theorem opening_secs (o : ChartOpts) (locked : Bool) : SecsOk (o.preSecs locked) := by
  unfold ChartOpts.preSecs
  exact secsOk_cons (one_ok (valText_ok (by decide +kernel) (by decide)) rfl)
    (secsOk_cons (if_ok (valText_ok (by decide +kernel) (showNat_attrSafe _)) rfl)
    (secsOk_cons (if_ok (by decide +kernel) rfl) secsOk_nil))

theorem closing_secs {o : ChartOpts} (h : WholeFine o) (sheet : Bool) : SecsOk (o.postSecs sheet) := by
  unfold ChartOpts.postSecs
  refine secsOk_cons (cFormat_ok h.area) (secsOk_cons (fun x hx => ?_) secsOk_nil)
  split at hx
  · cases hx
  · obtain rfl := List.mem_singleton.mp hx
    exact ⟨by decide +kernel, rfl⟩

theorem whole_good {c : Chart} {k : ChartKind} {calls : List ChartCall} {ss : List GivenSeries} {second : Option SecondChart}
    {start : Nat × Option Int} {sheet locked : Bool} (hc : ∀ c ∈ calls, chartCallOk c = true)
    (hc2 : ∀ p ∈ second, ∀ c ∈ p.calls, chartCallOk c = true) (hg : ChartGood U parses shown c) :
    ChartGood U parses shown (c.withOpts k calls ss second start sheet locked) := by
  have fine := whole_fine hc
  refine ⟨groups_good k calls ss start hc hg.body, ?_, hg.title, hg.xAxis, hg.yAxis, hg.x2Axis, hg.y2Axis,
    hg.x2Title, hg.y2Title, free_secs (opening_secs _ _) ?_, free_secs (closing_secs fine _) (fun _ _ => List.not_mem_nil), ?_,
    free_secs (area_secs fine) ?_, free_secs (chart_secs fine _ _) ?_⟩
  · intro b hb
    have hb2 : secondGroups c.combined second = some b := hb
    cases e : c.combined with
    | none => rw [e] at hb2; cases second <;> cases hb2
    | some b0 =>
      rw [e] at hb2
      cases second with
      | none =>
        injection hb2 with hb2
        subst hb2
        exact hg.combined b0 e
      | some p =>
        injection hb2 with hb2
        subst hb2
        exact groups_good p.kind p.calls p.series _ (hc2 p rfl) (hg.combined b0 e)
  · show ∀ n ∈ (["c:lang".toList, "c:style".toList, "c:protection".toList] : List Str), n ∉ ["c:chart".toList]
    decide
  · intro x hx
    obtain rfl := List.mem_singleton.mp hx
    exact ⟨layout_ok fine.layout, by rw [layout_tag]; decide⟩
  · show ∀ n ∈ (["c:dTable".toList, "c:spPr".toList] : List Str), n ∉ groupTags ++ axisTags
    decide
  · show ∀ n ∈ (["c:legend".toList, "c:plotVisOnly".toList, "c:dispBlanksAs".toList, "c:extLst".toList] : List Str), n ∉ ["c:title".toList]
    decide

/-- C75: when charts are saved, a reader of the chart part finds one chart group for the series on the primary axes and one for those on the
secondary axes, if there are any, and the same for the combined chart; in each the direction and the grouping of the bars, the style of the
type of chart, the angle of the first slice and the size of the hole, the gap and the overlap of the bars as its own series asked for, and the
drop lines, high-low lines and up-down bars with their formats, as the calls on the chart asked for.
Missing for the full property: see the counterexamples and `SpacingClear`. -/
theorem C75_groups_partial {Fmt : Type} [DecidableEq Fmt] (U : Unicode) (parses : Str → Bool) (lower : Str → Str) (cfg : Cfg)
    (hstd : cfg.isStandard) (merge : Fmt → Fmt → Fmt) (dflt : Fmt) (sheets : List (Str × Sheet Fmt))
    (hm : Made lower cfg merge dflt sheets) (charts out : List Chart) (hp : prepareCaches sheets charts = some out)
    (sst : SST) (i : Nat) (c : Chart) (k : ChartKind) (calls : List ChartCall) (ss : List GivenSeries) (second : Option SecondChart)
    (sheet locked : Bool) (hi : charts[i]? = some (c.withOpts k calls ss second k.spacing sheet locked))
    (hg : ChartGood U parses (shownOn sheets sst) c) (hf : BodyAgrees c.body k ss) (hf2 : SecondAgrees c.combined second)
    (hc : ∀ c ∈ calls, chartCallOk c = true) (hc2 : ∀ p ∈ second, ∀ c ∈ p.calls, chartCallOk c = true)
    (hsp : SpacingClear k ss) (hsp2 : ∀ p ∈ second, SpacingClear p.kind p.series) :
    ∃ c' node looks, out[i]? = some c' ∧ parseDoc (writePart (chartSpaceTree U parses c')) = some node ∧
      readGroupLooks node = some looks ∧
      Pairs (fun p q => GroupLookMeant p.1 p.2.1 p.2.2.1 p.2.2.2 q) (allGroups k calls ss second) looks := by
  obtain ⟨m, rfl, hcm⟩ := prepareCaches_some hp
  have good := whole_good (k := k) (ss := ss) (start := k.spacing) (sheet := sheet) (locked := locked) hc hc2 hg
  have hfl : ChartFilled (shownOn sheets sst) ((c.withOpts k calls ss second k.spacing sheet locked).update m) := by
    refine chart_filled (hm.shows hstd sst) hcm (fun r hr => ?_) good
    exact List.mem_flatMap.mpr ⟨_, List.mem_of_getElem? hi, hr⟩
  obtain ⟨looks, h1, h2⟩ := chart_groups hf hf2 hc hc2 hsp hsp2 (good.update m) hfl
  exact ⟨_, _, looks, by rw [List.getElem?_map, hi]; rfl, C07_part_roundtrip _ (chartSpaceTree_ok (good.update m) hfl), h1, h2⟩

/-! ### Reading a chart as a whole -/

theorem child_left {t : Text} {r : List Tree} (h : NoTag t r) (a : List Tree) : child t (toNodes (a ++ r)) = child t (toNodes a) := by
  induction a with
  | nil => exact h.child_none.trans (by rfl)
  | cons x a ih =>
    by_cases e : treeTag x = t
    · rw [List.cons_append, child_head _ _ e, child_head _ _ e]
    · rw [List.cons_append, child_skip _ _ e, child_skip _ _ e, ih]

theorem cVal_same {t : Text} {a b : List Node} (h : child t a = child t b) : cVal t a = cVal t b := by unfold cVal; rw [h]

theorem cOn_same {t : Text} {a b : List Node} (h : child t a = child t b) : cOn t a = cOn t b := by unfold cOn; rw [cVal_same h]

theorem optChild_same {α : Type} {read : NodeAttrs × List Node → Option α} {t : Text} {a b : List Node} (h : child t a = child t b) :
    optChild read t a = optChild read t b := by unfold optChild; rw [h]

theorem format_same {a b : List Node} (h : child "c:spPr".toList a = child "c:spPr".toList b) : readFormatIn a = readFormatIn b := by
  unfold readFormatIn
  rw [optChild_same h]

theorem na_read {secs : List (Str × List Tree)} (hs : SecsOk secs) (hn : (secs.map Prod.fst).Nodup) {b : Bool}
    (hl : secs.lookup "c:extLst".toList = some (if b then [naExt] else [])) : readNaEmpty (toNodes (secTrees secs)) = b := by
  unfold readNaEmpty secTrees
  rw [secs_child hs hn, hl]
  cases b
  · rfl
  · decide +kernel

theorem chart_parts {c : Chart} (h : ChartGood U parses shown c) {k : ChartKind} {calls : List ChartCall} {ss : List GivenSeries}
    {second : Option SecondChart} {sheet locked : Bool} (hc : ∀ c ∈ calls, chartCallOk c = true)
    (hcl : LegendClear (legendCalls calls) ss second)
    (e1 : c.spacePre = secTrees ((chartOpts calls).preSecs locked)) (e2 : c.layout = [(chartOpts calls).plotLayout.tree])
    (e3 : c.areaTail = secTrees (chartOpts calls).areaSecs) (e4 : c.chartTail = secTrees ((chartOpts calls).chartSecs k (ss.map (·.opts k))))
    (e5 : c.spacePost = secTrees ((chartOpts calls).postSecs sheet)) :
    ∃ q, readChartLook (chartSpaceTree U parses c).toNode = some q ∧ ChartLookMeant calls (inLegend ss second) locked q := by
  have fine := whole_fine hc
  generalize ho : chartOpts calls = o at fine e1 e2 e3 e4 e5
  -- the children of the chart
  have hpre : ∀ t, t ∉ ["c:autoTitleDeleted".toList, "c:title".toList, "c:plotArea".toList] → NoTag t ((if c.body.titleHidden = true then
      [.empty "c:autoTitleDeleted".toList [("val".toList, "1".toList)]] else chartTitleTrees U c.body.title) ++ [plotAreaTree U parses c]) := by
    intro t ht x hx e
    refine ht (e ▸ ?_)
    rcases List.mem_append.mp hx with hx | hx
    · split at hx
      · obtain rfl := List.mem_singleton.mp hx
        show "c:autoTitleDeleted".toList ∈ _
        decide
      · rw [chartTitleTrees_tag _ x hx]; decide
    · obtain rfl := List.mem_singleton.mp hx
      show "c:plotArea".toList ∈ _
      decide
  have hchart : ∀ t, t ∉ ["c:autoTitleDeleted".toList, "c:title".toList, "c:plotArea".toList] →
      child t (treeParts (chartTree U parses c)).2 = child t (toNodes (secTrees (o.chartSecs k (ss.map (·.opts k))))) := by
    intro t ht
    unfold chartTree
    simp only [treeParts]
    rw [e4, List.append_cons, (hpre t ht).child]
  have harea : ∀ t, t ∉ "c:layout".toList :: (groupTags ++ axisTags) →
      child t (treeParts (plotAreaTree U parses c)).2 = child t (toNodes (secTrees o.areaSecs)) := by
    intro t ht
    unfold plotAreaTree
    simp only [treeParts]
    have hn : NoTag t (c.layout ++ chartTypeTrees U parses c.axisIds c.axis2Ids c.body 0 ++ combinedTrees U parses c ++
        primaryAxes U c.body c.axisIds ++ secondaryAxes U c) := by
      intro x hx e
      refine ht (e ▸ ?_)
      have ha := axes_tag (U := U) c
      rw [List.mem_cons, List.mem_append]
      rcases List.mem_append.mp hx with hx | hx
      · rcases List.mem_append.mp hx with hx | hx
        · rcases List.mem_append.mp hx with hx | hx
          · rcases List.mem_append.mp hx with hx | hx
            · rw [e2] at hx
              obtain rfl := List.mem_singleton.mp hx
              exact Or.inl (layout_tag _)
            · exact Or.inr (Or.inl (chartType_tag _ _ _ _ x hx))
          · exact Or.inr (Or.inl (combined_tag c x hx))
        · exact Or.inr (Or.inr (ha x (List.mem_append_left _ hx)))
      · exact Or.inr (Or.inr (ha x (List.mem_append_right _ hx)))
    rw [← e3]
    exact hn.child c.areaTail
  have hlay : readLayoutIn (treeParts (plotAreaTree U parses c)).2 = some (layoutSeen o.plotLayout) := by
    unfold plotAreaTree readLayoutIn optChild
    simp only [treeParts]
    rw [e2]
    simp only [List.append_assoc, List.cons_append]
    rw [child_head _ _ (layout_tag _)]
    dsimp only
    rw [layout_read fine.layout]
    rfl
  have hct : treeTag (chartTree U parses c) = "c:chart".toList := rfl
  have hspace : ∀ t, t ∉ "c:chart".toList :: (o.postSecs sheet).map Prod.fst →
      child t (treeParts (chartSpaceTree U parses c)).2 = child t (toNodes (secTrees (o.preSecs locked))) := by
    intro t ht
    unfold chartSpaceTree
    simp only [treeParts]
    rw [e1, e5]
    refine child_left (NoTag.cons (fun e => ht (by rw [← e, hct]; exact List.mem_cons_self)) (noTag_secs (closing_secs fine sheet) fun h => ht (List.mem_cons_of_mem _ h))) _
  have hspace2 : ∀ t, t ∉ "c:chart".toList :: (o.preSecs locked).map Prod.fst →
      child t (treeParts (chartSpaceTree U parses c)).2 = child t (toNodes (secTrees (o.postSecs sheet))) := by
    intro t ht
    unfold chartSpaceTree
    simp only [treeParts]
    rw [e1, e5, List.append_cons]
    refine NoTag.child ((noTag_secs (opening_secs o locked) fun h => ht (List.mem_cons_of_mem _ h)).append
      (NoTag.cons (fun e => ht (by rw [← e, hct]; exact List.mem_cons_self)) (NoTag.nil _))) _
  -- the elements
  have s1 := opening_secs o locked
  have n1 : ((o.preSecs locked).map Prod.fst).Nodup := by
    show (["c:lang".toList, "c:style".toList, "c:protection".toList] : List Str).Nodup
    decide
  have s2 := closing_secs fine sheet
  have n2 : ((o.postSecs sheet).map Prod.fst).Nodup := by
    show (["c:spPr".toList, "c:printSettings".toList] : List Str).Nodup
    decide
  have s3 := area_secs fine
  have n3 : (o.areaSecs.map Prod.fst).Nodup := by
    show (["c:dTable".toList, "c:spPr".toList] : List Str).Nodup
    decide
  have s4 := chart_secs fine k (ss.map (·.opts k))
  have n4 : ((o.chartSecs k (ss.map (·.opts k))).map Prod.fst).Nodup := by
    show (["c:legend".toList, "c:plotVisOnly".toList, "c:dispBlanksAs".toList, "c:extLst".toList] : List Str).Nodup
    decide
  have g1 : cVal "c:style".toList (treeParts (chartSpaceTree U parses c)).2 = if o.style ≠ 2 then some (showNat o.style) else none := by
    rw [cVal_same (hspace _ (show _ ∉ ["c:chart".toList, "c:spPr".toList, "c:printSettings".toList] by decide))]
    exact sec_if s1 n1 (by unfold ChartOpts.preSecs; sec_look)
  have g2 : (child "c:protection".toList (treeParts (chartSpaceTree U parses c)).2).isSome = locked := by
    rw [hspace _ (show _ ∉ ["c:chart".toList, "c:spPr".toList, "c:printSettings".toList] by decide)]
    unfold secTrees
    rw [secs_child s1 n1, show (o.preSecs locked).lookup "c:protection".toList = _ by unfold ChartOpts.preSecs; sec_look; rfl]
    cases locked <;> rfl
  obtain ⟨fa, a1, a2⟩ := cFormat_in s2 n2 (f := o.areaFormat) (by unfold ChartOpts.postSecs; sec_look) fine.area
  have g3 : readFormatIn (treeParts (chartSpaceTree U parses c)).2 = some fa := by
    rw [← a1]
    exact format_same (hspace2 "c:spPr".toList (show _ ∉ ["c:chart".toList, "c:lang".toList, "c:style".toList, "c:protection".toList] by decide))
  obtain ⟨fp, p1, p2⟩ := cFormat_in s3 n3 (f := o.plotFormat) (by unfold ChartOpts.areaSecs; sec_look) fine.plot
  have g4 : readFormatIn (treeParts (plotAreaTree U parses c)).2 = some fp := by
    rw [← p1]
    exact format_same (harea "c:spPr".toList (by decide))
  have g5 : cOn "c:plotVisOnly".toList (treeParts (chartTree U parses c)).2 = !o.hiddenData := by
    rw [cOn_same (hchart _ (by decide))]
    exact sec_on s4 n4 (by unfold ChartOpts.chartSecs; sec_look)
  have g6 : cVal "c:dispBlanksAs".toList (treeParts (chartTree U parses c)).2 = o.empty.map EmptyCells.text := by
    rw [cVal_same (hchart _ (by decide))]
    exact sec_opt s4 n4 (by unfold ChartOpts.chartSecs; sec_look)
  have g7 : readNaEmpty (treeParts (chartTree U parses c)).2 = o.naEmpty := by
    have : readNaEmpty (treeParts (chartTree U parses c)).2 = readNaEmpty (toNodes (secTrees (o.chartSecs k (ss.map (·.opts k))))) := by
      unfold readNaEmpty
      rw [hchart _ (by decide)]
    rw [this]
    exact na_read s4 n4 (by unfold ChartOpts.chartSecs; sec_look)
  have g8 : ∃ x, optChild readLegend "c:legend".toList (treeParts (chartTree U parses c)).2 = some x ∧
      (if ChartCall.legend .hidden ∈ calls then x = none else ∃ q, x = some q ∧ LegendMeant (legendCalls calls) (inLegend ss second) q) := by
    rw [optChild_same (hchart _ (by decide))]
    have hl : (o.chartSecs k (ss.map (·.opts k))).lookup "c:legend".toList = some (o.legend.trees k (ss.map (·.opts k))) := by
      unfold ChartOpts.chartSecs; sec_look
    have hlegend : o.legend = (legendCalls calls).foldl CLegend.exec {} := by rw [← ho]; exact opts_legend calls
    unfold CLegend.trees at hl
    rw [hlegend, legend_hidden] at hl
    by_cases hh : ChartCall.legend .hidden ∈ calls
    · rw [if_pos (decide_eq_true ((mem_legendCalls _ _).mpr hh))] at hl
      refine ⟨none, sec_opt_none s4 n4 (by rw [hl]; rfl), ?_⟩
      rw [if_pos hh]
    · rw [if_neg (fun e => hh ((mem_legendCalls _ _).mp (of_decide_eq_true e)))] at hl
      obtain ⟨q, q1, q2⟩ := legend_read (second := second) (fun x hx => hc _ ((mem_legendCalls calls x).mp hx)) hcl k
      refine ⟨some q, sec_opt_one s4 n4 hl q1, ?_⟩
      rw [if_neg hh]
      exact ⟨q, rfl, q2⟩
  obtain ⟨leg, l1, l2⟩ := g8
  have g9 : ∃ x, optChild readDataTable "c:dTable".toList (treeParts (plotAreaTree U parses c)).2 = some x ∧
      (o.table = none → x = none) ∧ (∀ t, o.table = some (newTable t) → ∃ q, x = some q ∧ DataTableMeant t q) := by
    rw [optChild_same (harea _ (by decide))]
    have hl : o.areaSecs.lookup "c:dTable".toList = some (o.table.map CTable.tree).toList := by unfold ChartOpts.areaSecs; sec_look
    cases e : o.table with
    | none =>
      rw [e] at hl
      exact ⟨none, sec_opt_none s3 n3 (by rw [hl]; rfl), fun _ => rfl, nofun⟩
    | some t =>
      rw [e] at hl
      have ht := fine.table t e
      obtain ⟨f, r1, r2⟩ := dtable_read ht
      refine ⟨_, sec_opt_one s3 n3 hl r1, nofun, fun tc htc => ?_⟩
      injection htc with htc
      subst htc
      exact ⟨_, rfl, dtable_meant ht r2⟩
  obtain ⟨tab, t1, t2, t3⟩ := g9
  refine ⟨⟨cVal "c:style".toList (treeParts (chartSpaceTree U parses c)).2, locked, leg, tab, layoutSeen o.plotLayout, fp, fa, !o.hiddenData,
    o.empty.map EmptyCells.text, o.naEmpty⟩, ?_, ?_⟩
  · rw [toNode_parts]
    unfold readChartLook
    dsimp only
    rw [if_pos (show treeTag (chartSpaceTree U parses c) = "c:chartSpace".toList from rfl)]
    have k1 : child "c:chart".toList (treeParts (chartSpaceTree U parses c)).2 = some (treeParts (chartTree U parses c)) := by
      show child "c:chart".toList (toNodes (c.spacePre ++ chartTree U parses c :: c.spacePost)) = _
      rw [(h.spacePre.noTag (by decide)).child, child_head (t := "c:chart".toList) _ _ (by rfl)]
    have k2 : child "c:plotArea".toList (treeParts (chartTree U parses c)).2 = some (treeParts (plotAreaTree U parses c)) := by
      show child "c:plotArea".toList (toNodes ((if c.body.titleHidden = true then
        [.empty "c:autoTitleDeleted".toList [("val".toList, "1".toList)]] else chartTitleTrees U c.body.title) ++
        plotAreaTree U parses c :: c.chartTail)) = _
      rw [NoTag.child, child_head (t := "c:plotArea".toList) _ _ (by rfl)]
      split
      · exact NoTag.cons (by tagne) (NoTag.nil _)
      · exact NoTag.all (chartTitleTrees_tag _) (by decide)
    rw [k1]
    show (child "c:plotArea".toList (treeParts (chartTree U parses c)).2).bind _ = _
    rw [k2]
    show readChartParts (treeParts (chartSpaceTree U parses c)).2 (treeParts (chartTree U parses c)).2 (treeParts (plotAreaTree U parses c)).2 = _
    unfold readChartParts
    rw [l1, t1, hlay, g4, g3, g2, g5, g6, g7]
  · subst ho
    refine ⟨?_, rfl, l2, fun e => t2 (by rw [opts_table]; exact e), fun t e => t3 t (by rw [opts_table]; exact e), opts_layout calls, ?_, ?_, ?_, ?_, opts_na calls⟩
    · show (cVal _ _).getD _ = _
      rw [g1, ← opts_style]
      by_cases h2 : (chartOpts calls).style = 2
      · rw [if_neg (fun h => h h2), h2]; decide +kernel
      · rw [if_pos h2]; rfl
    · rw [← opts_plot]; exact p2
    · rw [← opts_area]; exact a2
    · show (!(chartOpts calls).hiddenData) = _
      rw [opts_hidden]
    · show (chartOpts calls).empty.map EmptyCells.text = _
      rw [opts_empty]
      cases lastSaid saysEmpty none calls with
      | none => rfl
      | some x => cases x <;> rfl

/-- C76: when charts are saved, a reader of the chart part finds the style, the legend (its place, the entries that are not shown, its layout,
format and font), the data table, the layout and format of the plot area, the format of the chart area, what is shown of hidden, empty and
missing cells, and the protection, as the calls on the chart asked for; what was not asked for is as in a new chart.
Missing for the full property: see the counterexamples and `LegendClear`. -/
theorem C76_chart_partial {Fmt : Type} [DecidableEq Fmt] (U : Unicode) (parses : Str → Bool) (lower : Str → Str) (cfg : Cfg)
    (hstd : cfg.isStandard) (merge : Fmt → Fmt → Fmt) (dflt : Fmt) (sheets : List (Str × Sheet Fmt))
    (hm : Made lower cfg merge dflt sheets) (charts out : List Chart) (hp : prepareCaches sheets charts = some out)
    (sst : SST) (i : Nat) (c : Chart) (k : ChartKind) (calls : List ChartCall) (ss : List GivenSeries) (second : Option SecondChart)
    (start : Nat × Option Int) (sheet locked : Bool) (hi : charts[i]? = some (c.withOpts k calls ss second start sheet locked))
    (hg : ChartGood U parses (shownOn sheets sst) c) (hc : ∀ c ∈ calls, chartCallOk c = true)
    (hc2 : ∀ p ∈ second, ∀ c ∈ p.calls, chartCallOk c = true) (hcl : LegendClear (legendCalls calls) ss second) :
    ∃ c' node look, out[i]? = some c' ∧ parseDoc (writePart (chartSpaceTree U parses c')) = some node ∧
      readChartLook node = some look ∧ ChartLookMeant calls (inLegend ss second) locked look := by
  obtain ⟨m, rfl, hcm⟩ := prepareCaches_some hp
  have good := whole_good (k := k) (ss := ss) (start := start) (sheet := sheet) (locked := locked) hc hc2 hg
  have hfl : ChartFilled (shownOn sheets sst) ((c.withOpts k calls ss second start sheet locked).update m) := by
    refine chart_filled (hm.shows hstd sst) hcm (fun r hr => ?_) good
    exact List.mem_flatMap.mpr ⟨_, List.mem_of_getElem? hi, hr⟩
  obtain ⟨look, h1, h2⟩ := chart_parts (good.update m) (second := second) hc hcl rfl rfl rfl rfl rfl
  exact ⟨_, _, look, by rw [List.getElem?_map, hi]; rfl, C07_part_roundtrip _ (chartSpaceTree_ok (good.update m) hfl), h1, h2⟩

end Verif
