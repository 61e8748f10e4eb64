import Verif.Model.ChartFmt
/-!
The axes of a new chart (C73): what is shown if nothing is asked for.
-/
namespace Verif.Spec
open Verif

/-- The x axis of a chart carries the categories; in a bar chart it is the y axis. In a scatter chart no axis does, the x axis stands for
it. -/
def isCategoryAxis (g : ChartGroup) (n : AxisName) : Bool := if g = .bar then n = .y ∨ n = .y2 else n = .x ∨ n = .x2

/-- Secondary axes. -/
def isSecondaryAxis (n : AxisName) : Bool := n = .x2 ∨ n = .y2

/-- An axis of a new chart. Major grid lines belong to the primary value axis (to both axes in radar charts), values are shown between tick
marks except on the x axes of area charts and in scatter charts, the secondary category axis is hidden, without labels, and crosses at the
maximum. In a bar chart the secondary axes are not swapped in what they take to be their type (F159). Pie and doughnut charts have no axes, radar charts no secondary ones. -/
def newAxisAsked (g : ChartGroup) (n : AxisName) : AxisOpts :=
  if g = .pie ∨ g = .doughnut ∨ (g = .radar ∧ isSecondaryAxis n = true) then {}
  else {
    axisType := if g = .bar ∧ isSecondaryAxis n = true then (if n = .x2 then .category else .value)
      else if g = .scatter ∨ isCategoryAxis g n = false then .value else if g = .stock then .date else .category
    side := if n = .y ∨ n = .y2 then .left else .bottom
    title := { horizontal := decide (n = .y ∧ g ≠ .column ∧ g ≠ .radar) }
    majorGrid := decide (g = .radar ∨ (isCategoryAxis g n = false ∧ isSecondaryAxis n = false))
    between := !decide (g = .scatter ∨ (g = .area ∧ isCategoryAxis g n = true))
    majorTick := if g = .radar ∧ n = .y then some .cross else none
    automatic := decide (g = .stock ∧ isCategoryAxis g n = true)
    hidden := isCategoryAxis g n && isSecondaryAxis n
    labelPlace := if isCategoryAxis g n && isSecondaryAxis n then .none else .nextTo
    crossing := if isCategoryAxis g n && isSecondaryAxis n then .max else .automatic }

end Verif.Spec
