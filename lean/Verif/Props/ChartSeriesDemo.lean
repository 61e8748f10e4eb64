import Verif.Props.ChartSeries
import Verif.Props.ChartAxesDemo
/-!
C74: a sample and counterexamples. C73: the axes of new charts.
-/
namespace Verif
open Spec BMap

/-- Calls on a series of the sample chart. -/
def salesLook : List SeriesCall :=
  [.format { solid := some { color := .red, transparency := 20 } }, .points [{}, { solid := some { color := .rgb 0xFF0000, transparency := 0 } }],
   .label (newLabel [.value, .key, .separator ';', .spot .insideEnd, .font { bold := some true }]),
   .customLabels [newLabel [.text "Best <one>".toList], newLabel [], newLabel [.hidden]],
   .trend (newTrend [.type (.polynomial 3), .name "T & U".toList, .equation true, .forward true "2".toList]),
   .yErr (newErrBars [.type false (.custom (salesRange 1 1 3 1) (salesRange 1 1 1 1)), .direction .plus, .endCap false]),
   .invertColor (.rgb 0x00FF00), .marker (newMarker [.type .diamond, .size 9])]

/-- Calls on a series of the combined scatter chart. -/
def scatterLook : List SeriesCall :=
  [.marker (newMarker [.type .star, .size 5, .format { line := some { color := .red } }]), .smooth true,
   .xErr (newErrBars [.type false (.fixed "2".toList)])]

/-- The series of the sample chart. -/
def salesGiven : List GivenSeries := [⟨salesSeries true, true, salesLook⟩, ⟨salesSeries false, false, []⟩]

/-- The series of the combined chart. -/
def salesSecond : Option (ChartKind × List GivenSeries) := some (.scatterStraight, [⟨salesSeries true, false, scatterLook⟩])

theorem salesGiven_all : allSeries .columnStacked salesGiven salesSecond =
    [(.columnStacked, ⟨salesSeries false, false, []⟩), (.columnStacked, ⟨salesSeries true, true, salesLook⟩),
     (.scatterStraight, ⟨salesSeries true, false, scatterLook⟩)] := rfl

theorem salesLook_ok : salesLook.all seriesCallOk = true := by decide +kernel

theorem scatterLook_ok : scatterLook.all seriesCallOk = true := by decide +kernel

theorem salesGiven_ok : ∀ p ∈ allSeries .columnStacked salesGiven salesSecond, givenOk p.1 p.2 := by
  rw [salesGiven_all]
  intro p hp
  simp only [List.mem_cons, List.not_mem_nil, or_false] at hp
  rcases hp with rfl | rfl | rfl
  · exact ⟨fun h => absurd h Bool.false_ne_true, fun c h => absurd (show c ∈ ([] : List SeriesCall) from h) List.not_mem_nil⟩
  · exact ⟨fun _ => ⟨by decide, by decide⟩, fun c h => List.all_eq_true.mp salesLook_ok c h⟩
  · exact ⟨fun h => absurd h Bool.false_ne_true, fun c h => List.all_eq_true.mp scatterLook_ok c h⟩

theorem salesGiven_bars : ∀ p ∈ allSeries .columnStacked salesGiven salesSecond,
    BarsGood asciiUnicode demoParses (shownOn salesSheets SST.new) p.2 := by
  intro p hp e he hk
  have hv : RefGood asciiUnicode demoParses (shownOn salesSheets SST.new) .numbers (salesRange 1 1 3 1) :=
    ⟨rangeGood_sales _ _ _ _ (by decide) (by decide), .inl rfl, by decide +kernel, fun _ => by decide +kernel⟩
  have hv2 : RefGood asciiUnicode demoParses (shownOn salesSheets SST.new) .numbers (salesRange 1 1 1 1) :=
    ⟨rangeGood_sales _ _ _ _ (by decide) (by decide), .inl rfl, by decide +kernel, fun _ => by decide +kernel⟩
  rw [salesGiven_all] at hp
  simp only [List.mem_cons, List.not_mem_nil, or_false] at hp
  rcases hp with rfl | rfl | rfl
  · rcases he with h | h <;> cases h
  · have : e = newErrBars [.type false (.custom (salesRange 1 1 3 1) (salesRange 1 1 1 1)), .direction .plus, .endCap false] := by
      rcases he with h | h <;> (simp [salesLook] at h; try exact h)
    subst this
    exact ⟨hv, hv2⟩
  · have : e = newErrBars [.type false (.fixed "2".toList)] := by
      rcases he with h | h <;> (simp [scatterLook] at h; try exact h)
    subst this
    obtain ⟨p, m, h⟩ := hk
    cases h

/-- The sample meets the conditions of `C74_series_partial`. -/
example : ∃ out, prepareCaches salesSheets [salesChart.withSeries .columnStacked salesGiven salesSecond] = some out ∧
    ∃ c' node looks, out[0]? = some c' ∧ parseDoc (writePart (chartSpaceTree asciiUnicode demoParses c')) = some node ∧
      readSeriesLooks node = some looks ∧
      Pairs (fun p q => SeriesLookMeant p.1 p.2.data.values.range.points p.2.calls q) (allSeries .columnStacked salesGiven salesSecond) looks := by
  refine ⟨_, rfl, ?_⟩
  exact C74_series_partial asciiUnicode demoParses id {} ⟨rfl, rfl, rfl, rfl⟩ (fun a _ => a) 0 salesSheets salesSheets_made
    [salesChart.withSeries .columnStacked salesGiven salesSecond] _ rfl SST.new 0 salesChart .columnStacked salesGiven salesSecond rfl
    salesChart_good ⟨rfl, rfl⟩ (show BodyFits _ _ _ from ⟨rfl, rfl⟩) salesGiven_ok salesGiven_bars

/-- The series a reader finds in a chart. -/
def seriesSeen (c : Chart) : Option (List SeriesLook) :=
  (prepareCaches salesSheets [c]).bind fun out => out.head?.bind fun c' =>
    (parseDoc (writePart (chartSpaceTree asciiUnicode demoParses c'))).bind readSeriesLooks

-- What a reader finds for the calls of the sample.
set_option synthInstance.maxSize 4000 in
set_option synthInstance.maxHeartbeats 400000 in
example : (seriesSeen (salesChart.withSeries .columnStacked salesGiven salesSecond)).map (fun l => l.map fun s =>
      (s.points.map (·.1), s.labels.map (fun l => (l.all.separator, l.all.place)), s.trend.map (fun t => (t.name, t.order)))) =
    some [([], none, none), ([1], some (some "; ".toList, some "inEnd".toList), some (some "T & U".toList, some "3".toList)),
      ([], none, none)] := by
  decide +kernel

set_option synthInstance.maxSize 4000 in
set_option synthInstance.maxHeartbeats 400000 in
example : (seriesSeen (salesChart.withSeries .columnStacked salesGiven salesSecond)).map (fun l => l.map fun s =>
      s.labels.map (fun l => l.points.map fun p => (p.idx, p.text, p.deleted))) =
    some [none, some [(0, some "Best <one>".toList, false), (2, none, true)], none] := by
  decide +kernel

set_option synthInstance.maxSize 4000 in
set_option synthInstance.maxHeartbeats 400000 in
example : (seriesSeen (salesChart.withSeries .columnStacked salesGiven salesSecond)).map (fun l => l.map fun s =>
      (s.bars.map (fun b => (b.axis, b.kind, b.side)), s.marker.map (fun m => (m.symbol, m.size)))) =
    some [([], none), ([(none, some "cust".toList, some "plus".toList)], some (some "diamond".toList, some "9".toList)),
      ([(some "x".toList, some "fixedVal".toList, some "both".toList)], some (some "star".toList, some "5".toList))] := by
  decide +kernel

/-- A chart with one series. -/
def seriesChart (k : ChartKind) (pushed : Bool) (calls : List SeriesCall) : Chart :=
  (({ body := { group := k.group } } : Chart).addAxisIds 0).withSeries k
    [⟨{ values := { range := salesRange 1 1 3 1 }, cats := { range := salesRange 1 1 3 1 } }, pushed, calls⟩] none

/-- F162: `push_series` replaces the format of a series (scatter charts) or its marker (line charts) by the default one; the same calls
on a series made by `add_series` count. -/
theorem C74_push_counterexample :
    (seriesSeen (seriesChart .line true [.marker (newMarker [.type .diamond])])).map (fun l => l.map fun s => s.marker.bind (·.symbol)) =
      some [some "none".toList] ∧
    (seriesSeen (seriesChart .line false [.marker (newMarker [.type .diamond])])).map (fun l => l.map fun s => s.marker.bind (·.symbol)) =
      some [some "diamond".toList] ∧
    (seriesSeen (seriesChart .scatter true [.format { line := some { color := .red } }])).map (fun l => l.map fun s => s.format.line.bind (·.fill)) =
      some [some .none] ∧
    (seriesSeen (seriesChart .scatter false [.format { line := some { color := .red } }])).map (fun l => l.map fun s => s.format.line.bind (·.fill)) ≠
      some [some .none] := by
  refine ⟨?_, ?_, ?_, ?_⟩ <;> decide +kernel

/-- F163: the line of a new series in a scatter chart of points is hidden; a format that says nothing about the line shows it. -/
theorem C74_scatter_line_counterexample :
    (seriesSeen (seriesChart .scatter false [])).map (fun l => l.map fun s => s.format.line.map fun x => (x.width, x.fill)) =
      some [some (some 28575, some FillSeen2.none)] ∧
    (seriesSeen (seriesChart .scatter false [.format {}])).map (fun l => l.map fun s => s.format.line.map fun x => (x.width, x.fill)) =
      some [some (some 28575, none)] := by
  constructor <;> decide +kernel

/-- F164: a marker with only a size is written with a symbol that has no value, which is required. -/
theorem C74_symbol_counterexample :
    seriesSeen (seriesChart .line false [.marker (newMarker [.size 9])]) = none ∧
    (CMarker.secs (newMarker [.size 9])).lookup "c:symbol".toList = some [.empty "c:symbol".toList []] := by
  exact ⟨by decide +kernel, rfl⟩

/-- F165: markers that are turned off last are still automatic, or have their old symbol. -/
theorem C74_marker_none_counterexample :
    (seriesSeen (seriesChart .radarMarkers false [.marker (newMarker [.automatic, .none])])).map (fun l => l.map fun s => s.marker.isSome) =
      some [false] ∧
    (seriesSeen (seriesChart .radarMarkers false [.marker (newMarker [.type .square, .none])])).map (fun l => l.map fun s => s.marker.bind (·.symbol)) =
      some [some "square".toList] := by
  constructor <;> decide +kernel

/-- F166: the separators of labels that are a space or a new line are written with a second space. -/
theorem C74_separator_counterexample :
    (seriesSeen (seriesChart .column false [.label (newLabel [.value, .category, .separator ' '])])).map
      (fun l => l.map fun s => s.labels.bind fun l => l.all.separator) = some [some "  ".toList] ∧
    (seriesSeen (seriesChart .column false [.label (newLabel [.value, .category, .separator '\n'])])).map
      (fun l => l.map fun s => s.labels.bind fun l => l.all.separator) = some [some "\n ".toList] := by
  constructor <;> decide +kernel

/-- F167: labels for which only the name of the series was asked for show the value too. -/
theorem C74_series_name_counterexample :
    (seriesSeen (seriesChart .column false [.label (newLabel [.series])])).map
      (fun l => l.map fun s => s.labels.map fun l => (l.all.series, l.all.value)) = some [some (true, true)] ∧
    (seriesSeen (seriesChart .column false [.label (newLabel [.category])])).map
      (fun l => l.map fun s => s.labels.map fun l => (l.all.category, l.all.value)) = some [some (true, false)] := by
  constructor <;> decide +kernel

/-- F168: the format of the label of a trendline is lost if the label shows only R-squared. -/
theorem C74_trend_label_counterexample :
    (seriesSeen (seriesChart .column false [.trend (newTrend [.type .linear, .rSquared true, .labelFormat { noFill := true }])])).map
      (fun l => l.map fun s => s.trend.map fun t => (t.rSquared, t.label.isSome)) = some [some (true, false)] ∧
    (seriesSeen (seriesChart .column false [.trend (newTrend [.type .linear, .equation true, .labelFormat { noFill := true }])])).map
      (fun l => l.map fun s => s.trend.map fun t => (t.rSquared, t.label.isSome)) = some [some (false, true)] := by
  constructor <;> decide +kernel

end Verif
