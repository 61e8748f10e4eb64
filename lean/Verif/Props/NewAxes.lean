import Verif.Spec.NewAxes
import Verif.Spec.ChartFmt
/-!
C73: the axes of new charts are the usual ones.
-/
namespace Verif
open Spec

/-- C73: an axis of a new chart of any type is as the table of defaults says; `AxesMeant` speaks about changes to these. -/
theorem C73_new_axes (g : ChartGroup) (n : AxisName) : axisOf (newAxes g) n = newAxisAsked g n := by
  cases g <;> cases n <;> decide +kernel

example : (axisOf (newAxes .bar) .x).majorGrid = true ∧ (axisOf (newAxes .column) .x).majorGrid = false := by decide

end Verif
