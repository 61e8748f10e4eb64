import Verif.Props.ChartAxes
import Verif.Props.ChartDemo
/-!
C73: a sample and counterexamples.
-/
namespace Verif
open Spec BMap

/-- Calls on the axes of the sample chart. -/
def salesCalls : List (AxisName × AxisCall) :=
  [(.x, .name "Regions".toList {}), (.y, .name [] (salesRange 0 1 0 1)), (.x, .labelInterval 2), (.y, .max "100".toList),
   (.y, .majorGridLine { color := .red, width := some 9 }), (.x, .font { bold := some true, rotation := some 45 }),
   (.y, .numFormat "0.00".toList), (.x, .crossing (.category 2)), (.y2, .reverse), (.y2, .logBase 10), (.x2, .hidden false),
   (.y, .displayUnit .thousands), (.x, .name "Places".toList {}), (.y, .minorTick .inside)]

/-- The names of the sample are those of the primary axes, and the cells are there. -/
theorem salesCalls_names : ∀ n t r, (n, AxisCall.name t r) ∈ salesCalls → r.sheet ≠ [] →
    (n = .x ∨ n = .y) ∧ RefGood asciiUnicode demoParses (shownOn salesSheets SST.new) .name r := by
  intro n t r h hs
  have ht : RefGood asciiUnicode demoParses (shownOn salesSheets SST.new) .name (salesRange 0 1 0 1) :=
    ⟨rangeGood_sales _ _ _ _ (by decide) (by decide), .inl rfl, by decide +kernel, nofun⟩
  simp only [salesCalls, List.mem_cons, List.not_mem_nil, or_false, Prod.mk.injEq, AxisCall.name.injEq, reduceCtorEq, and_false, false_or] at h
  rcases h with ⟨rfl, rfl, rfl⟩ | ⟨rfl, rfl, rfl⟩ | ⟨rfl, rfl, rfl⟩
  · exact absurd rfl hs
  · exact ⟨Or.inr rfl, ht⟩
  · exact absurd rfl hs

/-- The sample meets the conditions of `C73_axes_partial`. -/
example : ∃ out, prepareCaches salesSheets [salesChart.withAxes salesCalls {}] = some out ∧
    ∃ c' node looks, out[0]? = some c' ∧ parseDoc (writePart (chartSpaceTree asciiUnicode demoParses c')) = some node ∧
      readAxisLooks node = some looks ∧ AxesMeant .column .scatter true salesCalls looks := by
  refine ⟨_, rfl, ?_⟩
  exact C73_axes_partial asciiUnicode demoParses id {} ⟨rfl, rfl, rfl, rfl⟩ (fun a _ => a) 0 salesSheets salesSheets_made
    [salesChart.withAxes salesCalls {}] _ rfl SST.new 0 salesChart salesCalls {} rfl salesChart_good
    (by decide +kernel) (by decide +kernel) (by decide +kernel) salesCalls_names
    ⟨fun _ => Iff.rfl, fun _ h => absurd rfl h⟩

/-- The axes a reader finds in a chart. -/
def axesSeen (c : Chart) : Option (List AxisLook) :=
  (prepareCaches salesSheets [c]).bind fun out => out.head?.bind fun c' =>
    (parseDoc (writePart (chartSpaceTree asciiUnicode demoParses c'))).bind readAxisLooks

/-- What a reader finds for the calls of the sample. -/
example : (axesSeen (salesChart.withAxes salesCalls {})).map (fun l => l.map fun a => (a.kind, a.title.bind (·.text), a.max, a.labelSkip)) =
    some [("c:catAx".toList, some "Places".toList, none, some "2".toList), ("c:valAx".toList, none, some "100".toList, none),
      ("c:valAx".toList, none, none, none), ("c:valAx".toList, none, none, none)] := by
  decide +kernel

/-- A chart with one series. -/
def axisChart (g : ChartGroup) (second : Bool) (calls : List (AxisName × AxisCall)) : Chart :=
  (({ body := { group := g, series := [{ values := { range := salesRange 1 1 3 1 }, secondary := second }] } } : Chart).addAxisIds 0).withAxes
    calls { hasCrosses := g.hasCrosses }

/-- F153: a name from cells that follows a name as text is not used: the title is still the text. -/
theorem C73_name_counterexample :
    (axesSeen (axisChart .column false [(.x, .name "Old".toList {}), (.x, .name [] (salesRange 0 1 0 1))])).map
      (fun l => l.map fun a => a.title.bind (·.text)) = some [some "Old".toList, none] := by
  decide +kernel

/-- F154: a line through the letters is never written. -/
theorem C73_strike_counterexample :
    (axesSeen (axisChart .column false [(.x, .font { strikethrough := true, italic := true })])).map
      (fun l => l.map fun a => a.font.map fun f => (f.font.italic, f.font.strike)) = some [some (true, false), none] := by
  decide +kernel

/-- F155: to show every label (an interval of one) cannot be asked for: nothing is written, as if it was never said. -/
theorem C73_interval_counterexample :
    (axesSeen (axisChart .column false [(.x, .labelInterval 1), (.x, .tickInterval 1)])).map
      (fun l => l.map fun a => (a.labelSkip, a.tickSkip)) = some [(none, none), (none, none)] ∧
    (axesSeen (axisChart .column false [(.x, .labelInterval 2), (.x, .tickInterval 3)])).map
      (fun l => l.map fun a => (a.labelSkip, a.tickSkip)) = some [(some "2".toList, some "3".toList), (none, none)] := by
  constructor <;> decide +kernel

/-- F156: `set_automatic_axis(true)` ("generally the default") and `set_date_axis(false)` turn a category axis that is automatic into one
that is not, just as `set_text_axis(true)` does. -/
theorem C73_automatic_counterexample :
    (axesSeen (axisChart .column false [])).map (fun l => l.map (·.auto)) = some [true, false] ∧
    (axesSeen (axisChart .column false [(.x, .automaticAxis true)])).map (fun l => l.map (·.auto)) = some [false, false] ∧
    (axesSeen (axisChart .column false [(.x, .dateAxis false)])).map (fun l => l.map (·.auto)) = some [false, false] := by
  refine ⟨?_, ?_, ?_⟩ <;> decide +kernel

/-- F157: the secondary axis of the categories is a date axis if the primary x axis is one, whatever was asked for; in a bar chart the
values decide for the categories. -/
theorem C73_date_counterexample :
    (axesSeen (axisChart .column true [(.x2, .dateAxis true)])).map (fun l => l.map (·.kind)) =
      some ["c:catAx".toList, "c:valAx".toList, "c:valAx".toList, "c:catAx".toList] ∧
    (axesSeen (axisChart .column true [(.x, .dateAxis true)])).map (fun l => l.map (·.kind)) =
      some ["c:dateAx".toList, "c:valAx".toList, "c:valAx".toList, "c:dateAx".toList] ∧
    (axesSeen (axisChart .bar false [(.y, .dateAxis true)])).map (fun l => l.map (·.kind)) = some ["c:catAx".toList, "c:valAx".toList] := by
  refine ⟨?_, ?_, ?_⟩ <;> decide +kernel

/-- F158: `set_date_axis(false)` on a value axis takes away its maximum. -/
theorem C73_value_axis_counterexample :
    (axesSeen (axisChart .column false [(.y, .max "9".toList), (.y, .dateAxis false)])).map (fun l => l.map fun a => (a.kind, a.max)) =
      some [("c:catAx".toList, none), ("c:valAx".toList, none)] := by
  decide +kernel

/-- F159: the secondary value axis of a bar chart has no maximum, although one was asked for. -/
theorem C73_bar_scale_counterexample :
    (axesSeen (axisChart .bar true [(.x2, .max "9".toList), (.x, .max "8".toList)])).map (fun l => l.map fun a => (a.kind, a.max)) =
      some [("c:catAx".toList, none), ("c:valAx".toList, some "8".toList), ("c:valAx".toList, none), ("c:catAx".toList, none)] := by
  decide +kernel

/-- F160: in an area chart the crossing asked for on the secondary value axis is lost, because its partner is hidden by default. -/
theorem C73_crossing_counterexample :
    (axesSeen (axisChart .area true [(.y2, .crossing .max)])).map (fun l => l.map fun a => (a.kind, a.hidden, a.cross)) =
      some [("c:catAx".toList, false, .automatic), ("c:valAx".toList, false, .automatic), ("c:valAx".toList, false, .max),
        ("c:catAx".toList, true, .automatic)] ∧
    (axesSeen (axisChart .line true [(.y2, .crossing .max)])).map (fun l => l.map fun a => (a.kind, a.hidden, a.cross)) =
      some [("c:catAx".toList, false, .automatic), ("c:valAx".toList, false, .automatic), ("c:valAx".toList, false, .max),
        ("c:catAx".toList, true, .max)] := by
  constructor <;> decide +kernel

/-- F161: an axis that is crossed at the maximum of a reversed axis is where it always was, but is written as being on the other
side. -/
theorem C73_side_counterexample :
    (axesSeen (axisChart .column false [(.x, .reverse), (.x, .crossing .max)])).map (fun l => l.map (·.side)) =
      some [some "b".toList, some "r".toList] := by
  decide +kernel

end Verif
