import Verif.Props.ChartWhole
import Verif.Props.ChartSeriesDemo
/-!
C75 and C76: a sample and counterexamples.
-/
namespace Verif
open Spec BMap

/-- The series of the sample chart, with gaps. -/
def wholeSeries : List GivenSeries :=
  [⟨salesSeries true, false, [.gap 300, .overlap (-20), .deleted true]⟩, ⟨salesSeries false, false, [.gap 80]⟩]

/-- Calls on the sample chart. -/
def wholeCalls : List ChartCall :=
  [.style 26, .emptyCells .connected, .naEmpty, .legend (.spot .topRight), .legend (.deleted [1]), .legend (.font { bold := some true }),
   .table (newTable [.keys true, .vertical false]), .plotLayout { x := some "0.2".toList, y := some "0.1".toList },
   .areaFormat { noFill := true }, .hiddenData]

/-- The combined chart of the sample. -/
def wholeSecond : Option SecondChart := some ⟨.scatterSmooth, [⟨salesSeries true, false, []⟩], []⟩

theorem wholeCalls_ok : wholeCalls.all chartCallOk = true := by decide +kernel

theorem wholeSecond_ok : ∀ p ∈ wholeSecond, ∀ c ∈ p.calls, chartCallOk c = true := by
  intro p hp c hc
  injection hp with hp
  subst hp
  cases hc

theorem wholeSecond_clear : ∀ p ∈ wholeSecond, SpacingClear p.kind p.series := by
  intro p hp
  injection hp with hp
  subst hp
  have hn : ¬ (ChartKind.scatterSmooth.group = .bar ∨ ChartKind.scatterSmooth.group = .column) := by decide
  exact ⟨fun h => absurd h hn, fun h => absurd h hn, fun h => absurd h hn⟩

theorem wholeSeries_clear : SpacingClear .columnStacked wholeSeries := by
  refine ⟨fun _ g hg => ?_, fun _ _ => Or.inr ?_, fun _ _ => Or.inl (by decide +kernel)⟩
  · simp only [wholeSeries, List.mem_cons, List.not_mem_nil, or_false] at hg
    rcases hg with rfl | rfl
    · show List.findSome? saysGap _ ≠ _
      decide +kernel
    · show List.findSome? saysGap _ ≠ _
      decide +kernel
  · exact ⟨_, List.mem_cons_self, rfl, .gap 300, List.mem_cons_self, by decide⟩

/-- The sample meets the conditions of `C75_groups_partial`. -/
example : ∃ out, prepareCaches salesSheets [salesChart.withOpts .columnStacked wholeCalls wholeSeries wholeSecond ChartKind.columnStacked.spacing false true] = some out ∧
    ∃ c' node looks, out[0]? = some c' ∧ parseDoc (writePart (chartSpaceTree asciiUnicode demoParses c')) = some node ∧
      readGroupLooks node = some looks ∧
      Pairs (fun p q => GroupLookMeant p.1 p.2.1 p.2.2.1 p.2.2.2 q) (allGroups .columnStacked wholeCalls wholeSeries wholeSecond) looks := by
  refine ⟨_, rfl, ?_⟩
  exact C75_groups_partial asciiUnicode demoParses id {} ⟨rfl, rfl, rfl, rfl⟩ (fun a _ => a) 0 salesSheets salesSheets_made
    [salesChart.withOpts .columnStacked wholeCalls wholeSeries wholeSecond ChartKind.columnStacked.spacing false true]
    _ rfl SST.new 0 salesChart .columnStacked wholeCalls wholeSeries wholeSecond false true rfl
    salesChart_good ⟨rfl, rfl⟩ (show BodyAgrees _ _ _ from ⟨rfl, rfl⟩) (fun c h => List.all_eq_true.mp wholeCalls_ok c h)
    wholeSecond_ok wholeSeries_clear wholeSecond_clear

/-- The sample meets the conditions of `C76_chart_partial`. -/
example : ∃ out, prepareCaches salesSheets [salesChart.withOpts .columnStacked wholeCalls wholeSeries wholeSecond ChartKind.columnStacked.spacing false true] = some out ∧
    ∃ c' node look, out[0]? = some c' ∧ parseDoc (writePart (chartSpaceTree asciiUnicode demoParses c')) = some node ∧
      readChartLook node = some look ∧ ChartLookMeant wholeCalls (inLegend wholeSeries wholeSecond) true look := by
  refine ⟨_, rfl, ?_⟩
  exact C76_chart_partial asciiUnicode demoParses id {} ⟨rfl, rfl, rfl, rfl⟩ (fun a _ => a) 0 salesSheets salesSheets_made
    [salesChart.withOpts .columnStacked wholeCalls wholeSeries wholeSecond ChartKind.columnStacked.spacing false true]
    _ rfl SST.new 0 salesChart .columnStacked wholeCalls wholeSeries wholeSecond ChartKind.columnStacked.spacing false true rfl
    salesChart_good (fun c h => List.all_eq_true.mp wholeCalls_ok c h) wholeSecond_ok (Or.inl (by decide +kernel))

/-- The part of a chart that was saved. -/
def savedNode (c : Chart) : Option Node :=
  (prepareCaches salesSheets [c]).bind fun out => out.head?.bind fun c' => parseDoc (writePart (chartSpaceTree asciiUnicode demoParses c'))

/-- The chart groups a reader finds in a chart. -/
def groupsSeen (c : Chart) : Option (List ChartGroupLook) := (savedNode c).bind readGroupLooks

/-- The chart a reader finds. -/
def wholeSeen (c : Chart) : Option ChartLook := (savedNode c).bind readChartLook

/-- A chart of a type with some series and calls, on the sample worksheet. -/
def plainChart (k : ChartKind) (ss : List GivenSeries) (calls : List ChartCall) (start : Nat × Option Int) : Chart :=
  (({ body := { group := k.group, series := ss.map (·.data) } } : Chart).addAxisIds 0).withOpts k calls ss none start false false

/-- A series with a few calls. -/
def plainSeries (secondary : Bool) (calls : List SeriesCall) : GivenSeries := ⟨salesSeries secondary, false, calls⟩

-- What a reader finds for the calls of the sample.
set_option synthInstance.maxSize 4000 in
set_option synthInstance.maxHeartbeats 400000 in
example : (groupsSeen (salesChart.withOpts .columnStacked wholeCalls wholeSeries wholeSecond ChartKind.columnStacked.spacing false true)).map
      (fun l => l.map fun s => (s.kind, s.dir, s.grouping, s.gap, s.overlap)) =
    some [("c:barChart".toList, some "col".toList, some "stacked".toList, some "80".toList, some "100".toList),
      ("c:barChart".toList, some "col".toList, some "stacked".toList, some "300".toList, some "-20".toList),
      ("c:scatterChart".toList, none, none, none, none)] := by
  decide +kernel

set_option synthInstance.maxSize 4000 in
set_option synthInstance.maxHeartbeats 400000 in
example : (wholeSeen (salesChart.withOpts .columnStacked wholeCalls wholeSeries wholeSecond ChartKind.columnStacked.spacing false true)).map
      (fun s => (s.style, s.locked, s.legend.map (fun g => (g.spot, g.entries)), s.table.map (fun t => (t.keys, t.vertical, t.horizontal)),
        s.visibleOnly, s.empty, s.naEmpty)) =
    some (some "26".toList, true, some (some "tr".toList, [1]), some (true, false, true), false, some "span".toList, true) := by
  decide +kernel

set_option synthInstance.maxSize 4000 in
set_option synthInstance.maxHeartbeats 400000 in
example : (groupsSeen (plainChart .stock [plainSeries false [], plainSeries true []] [.highLowLines true, .upBarFormat { noFill := true }] (150, none))).map
      (fun l => l.map fun s => (s.highLow.isSome, s.upDown.isSome, s.drop.isSome)) =
    some [(true, true, false), (false, true, false)] := by
  decide +kernel

/-- F169: the gap and the overlap that a series on the primary axes asked for are those of the series on the secondary axes, too, if
these asked for nothing. -/
theorem C75_spacing_counterexample :
    (groupsSeen (plainChart .column [plainSeries false [.gap 50, .overlap 30], plainSeries true []] [] (150, none))).map
      (fun l => l.map fun s => (s.gap, s.overlap)) =
        some [(some "50".toList, some "30".toList), (some "50".toList, some "30".toList)] ∧
    (groupsSeen (plainChart .column [plainSeries false [], plainSeries true []] [] (150, none))).map
      (fun l => l.map fun s => (s.gap, s.overlap)) = some [(none, none), (none, none)] := by
  constructor <;> decide +kernel

/-- F170: what the series on the secondary axes asked for stays in the chart when it was written: if the same workbook is saved a second time,
the series on the primary axes have it. -/
theorem C75_second_save_counterexample :
    let ss := [plainSeries false [], plainSeries true [.gap 50]]
    (groupsSeen (plainChart .column ss [] (150, none))).map (fun l => l.map (·.gap)) = some [none, some "50".toList] ∧
    (groupsSeen (plainChart .column ss [] (spacingWritten .column (150, none) ss))).map (fun l => l.map (·.gap)) =
      some [some "50".toList, some "50".toList] := by
  dsimp only
  constructor <;> decide +kernel

/-- F171: a series that asks for a gap of 150 last does not get it. -/
theorem C75_gap_counterexample :
    (groupsSeen (plainChart .column [plainSeries false [.gap 50], plainSeries false [.gap 150]] [] (150, none))).map (fun l => l.map (·.gap)) =
      some [some "50".toList] ∧
    (groupsSeen (plainChart .column [plainSeries false [.gap 50], plainSeries false [.gap 151]] [] (150, none))).map (fun l => l.map (·.gap)) =
      some [some "151".toList] := by
  constructor <;> decide +kernel

/-- F172: the entries of the legend are in the order of the chart groups; a series on the secondary axes that was added first and removed
from the legend removes the entry of the first series on the primary axes. -/
theorem C76_legend_order_counterexample :
    let ss := [plainSeries true [.deleted true], plainSeries false []]
    (wholeSeen (plainChart .column ss [] (150, none))).map (fun s => s.legend.map (·.entries)) = some (some [0]) ∧
    entriesAsked [] (inLegend ss none) = [1] := by
  dsimp only
  constructor <;> decide +kernel

/-- F173: the series of a combined chart cannot be removed from the legend. -/
theorem C76_combined_legend_counterexample :
    let ss := [plainSeries false []]
    let second : Option SecondChart := some ⟨.line, [plainSeries false [.deleted true]], []⟩
    (wholeSeen ((({ body := { group := .column, series := [salesSeries false] }, combined := some { group := .line, series := [salesSeries false] } } :
      Chart).addAxisIds 0).withOpts .column [] ss second (150, none) false false)).map (fun s => s.legend.map (·.entries)) = some (some []) ∧
    entriesAsked [] (inLegend ss second) = [1] := by
  dsimp only
  constructor <;> decide +kernel

end Verif
