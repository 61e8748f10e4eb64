import Verif.Props.Chart
/-!
C34 and C54: samples and counterexamples.
-/
namespace Verif
open Spec BMap

/-- The worksheet after some calls. -/
def demoSheet (ops : List (Op Nat)) : Sheet Nat :=
  ops.foldl (fun s op => (s.exec op).2) (TSheet.new {} (fun a _ => a) 0).sheet

/-- A table of sales with a header, a text, two numbers, a date and an empty cell. -/
def salesOps : List (Op Nat) :=
  [.string 0 0 "Region".toList none, .string 0 1 "Bob's <sales>".toList none,
   .string 1 0 "East".toList none, .number 1 1 (.finite "17".toList) none,
   .string 2 0 "West".toList none, .dateTime 3 1 (.finite "45000".toList) none,
   .number 3 0 (.finite "5".toList) none]

def salesSheets : List (Str × Sheet Nat) := [("Bob's data".toList, demoSheet salesOps)]

/-- Is the text a number? Enough for the samples. -/
def demoParses (s : Str) : Bool := !s.isEmpty && s.all fun c => decide ('0' ≤ c ∧ c ≤ '9')

/-- A range of the sample worksheet. -/
def salesRange (r1 c1 r2 c2 : Nat) : ChartRange := ⟨"Bob's data".toList, ⟨r1, c1, r2, c2⟩⟩

/-- A series of the sample worksheet. -/
def salesSeries (secondary : Bool) : ChartSeries where
  title := { ref := { range := salesRange 0 1 0 1 } }
  values := { range := salesRange 1 1 3 1 }
  cats := { range := salesRange 1 0 3 0 }
  yErr := some { custom := true, plus := { range := salesRange 1 1 3 1 }, minus := { range := salesRange 1 1 1 1 } }
  secondary := secondary

/-- A column chart with a series on each pair of axes and a scatter chart combined with it. -/
def salesChart : Chart :=
  ({ body := { group := .column, series := [salesSeries true, salesSeries false], title := { name := "T".toList } }
     combined := some { group := .scatter, series := [salesSeries true] } } : Chart).addAxisIds 1

theorem rangeGood_sales (r1 c1 r2 c2 : Nat) (h1 : r1 ≤ r2) (h2 : c1 ≤ c2) :
    RangeGood asciiUnicode (salesRange r1 c1 r2 c2) :=
  ⟨by show "Bob's data".toList ≠ []; decide, by show "Bob's data".toList.head? ≠ some '\''; decide,
    by show quoteSheetName asciiUnicode "Bob's data".toList ≠ none; decide +kernel,
    by show attrSafe "Bob's data".toList = true; decide +kernel, h1, h2⟩

theorem free_nil (tags : List Text) : Free tags [] := fun _ h => by simp at h

theorem salesSheets_made : Made asciiLower {} (fun a _ => a) 0 salesSheets := by
  intro p hp
  simp only [salesSheets, List.mem_singleton] at hp
  subst hp
  exact ⟨salesOps.map fun op => .base (.cell op), _, rfl, rfl⟩

theorem salesSeries_good (b : Bool) (g : ChartGroup) :
    SeriesGood asciiUnicode demoParses (shownOn salesSheets SST.new) g (salesSeries b) := by
  have hv : RefGood asciiUnicode demoParses (shownOn salesSheets SST.new) .numbers (salesRange 1 1 3 1) :=
    ⟨rangeGood_sales _ _ _ _ (by decide) (by decide), .inl rfl, by decide +kernel, fun _ => by decide +kernel⟩
  have ht : RefGood asciiUnicode demoParses (shownOn salesSheets SST.new) .name (salesRange 0 1 0 1) :=
    ⟨rangeGood_sales _ _ _ _ (by decide) (by decide), .inl rfl, by decide +kernel, nofun⟩
  have hc : RefGood asciiUnicode demoParses (shownOn salesSheets SST.new) .categories (salesRange 1 0 3 0) :=
    ⟨rangeGood_sales _ _ _ _ (by decide) (by decide), .inl rfl, by decide +kernel,
      fun h => absurd h (by decide +kernel)⟩
  refine ⟨⟨rfl, fun _ _ => ht⟩, hv, fun _ => hc,
    fun _ => by show "Bob's data".toList ≠ []; decide, ?_, nofun, free_nil _, free_nil _⟩
  · intro e he
    cases he
    exact ⟨fun _ => hv, fun _ => ⟨rangeGood_sales _ _ _ _ (by decide) (by decide), .inl rfl, by decide +kernel,
      fun _ => by decide +kernel⟩, free_nil _, free_nil _, free_nil _⟩

theorem titleGood_none {parses : Str → Bool} {shown : Text → Nat → Nat → Content} {t : ChartTitle}
    (h : t.ref.range.sheet = []) (h1 : t.rich = []) (h2 : t.rest = []) (h3 : t.only = none) :
    TitleGood asciiUnicode parses shown t :=
  ⟨fun _ hs => absurd h hs, by simp [h1], by rw [h2]; exact free_nil _, by rw [h3]; exact nofun⟩

theorem axisGood_default {parses : Str → Bool} {shown : Text → Nat → Nat → Content} :
    AxisGood asciiUnicode parses shown {} :=
  ⟨titleGood_none rfl rfl rfl rfl, free_nil _, free_nil _, free_nil _⟩

/-- The sample meets the conditions of `C34_chart_cells_partial` and of the theorems of C54. -/
theorem salesChart_good : ChartGood asciiUnicode demoParses (shownOn salesSheets SST.new) salesChart := by
  refine ⟨⟨free_nil _, free_nil _, free_nil _, ?_⟩, ?_, titleGood_none rfl rfl rfl rfl, axisGood_default, axisGood_default,
    axisGood_default, axisGood_default, .inr rfl, .inr rfl, free_nil _, free_nil _, free_nil _, free_nil _, free_nil _⟩
  · intro s hs
    have : s ∈ [salesSeries true, salesSeries false] := hs
    simp only [List.mem_cons, List.not_mem_nil, or_false] at this
    rcases this with rfl | rfl <;> exact salesSeries_good _ _
  · intro b hb
    cases hb
    refine ⟨free_nil _, free_nil _, free_nil _, ?_⟩
    intro s hs
    have : s ∈ [salesSeries true] := hs
    simp only [List.mem_cons, List.not_mem_nil, or_false] at this
    subst this
    exact salesSeries_good _ _

example : MixSuits salesChart := ⟨fun h => absurd h (by decide), fun b hb => by cases hb; exact fun h => absurd h (by decide)⟩

example : ∃ out, prepareCaches salesSheets [salesChart] = some out := ⟨_, rfl⟩

/-- What the first series of the sample means. -/
example : ((chartMeant (shownOn salesSheets SST.new) salesChart).groups.map fun g => (g.tag, g.axes, g.series.map (·.idx))) =
      [("c:barChart".toList, [50010001, 50010002], [0]), ("c:barChart".toList, [60010001, 60010002], [1]),
       ("c:scatterChart".toList, [60010001, 60010002], [2])] ∧
    refMeant (shownOn salesSheets SST.new) .numbers (salesRange 1 1 3 1) =
      ⟨"Bob's data".toList, ((1, 1), (3, 1)), false, true, some 3, [(0, "17".toList), (2, "45000".toList)]⟩ ∧
    refMeant (shownOn salesSheets SST.new) .categories (salesRange 1 0 3 0) =
      ⟨"Bob's data".toList, ((1, 0), (3, 0)), true, false, some 3, [(0, "East".toList), (1, "West".toList), (2, "5".toList)]⟩ := by
  refine ⟨by decide +kernel, by decide +kernel, by decide +kernel⟩

/-! ### Counterexamples -/

/-- A chart with one series of values. -/
def valuesChart (r : ChartRange) : Chart := { body := { series := [{ values := { range := r } }] } }

/-- The values a reader finds. -/
def valuesSeen (sheets : List (Str × Sheet Nat)) (c : Chart) : Option (List (List (Option RefSeen))) :=
  (prepareCaches sheets [c]).bind fun out => out.head?.bind fun c' =>
    ((parseDoc (writePart (chartSpaceTree asciiUnicode demoParses c'))).bind readChart).map fun s =>
      s.groups.map fun g => g.series.map (·.vals)

/-- Two cells in the second row. -/
def rowSheets : List (Str × Sheet Nat) :=
  [("S".toList, demoSheet [.number 1 0 (.finite "7".toList) none, .number 1 1 (.finite "8".toList) none])]

/-- F21: in a range of two columns an empty row counts as one cell, so that the values of the next row are at the wrong
positions: 7 is in the third cell of A1:B2. -/
theorem C34_missing_row_counterexample :
    valuesSeen rowSheets (valuesChart ⟨"S".toList, ⟨0, 0, 1, 1⟩⟩) =
      some [[some ⟨"S".toList, ((0, 0), (1, 1)), false, false, some 3, [(1, "7".toList), (2, "8".toList)]⟩]] ∧
    refMeant (shownOn rowSheets SST.new) .numbers ⟨"S".toList, ⟨0, 0, 1, 1⟩⟩ =
      ⟨"S".toList, ((0, 0), (1, 1)), false, false, some 4, [(2, "7".toList), (3, "8".toList)]⟩ := by
  constructor <;> decide +kernel

/-- A text that looks like a number. -/
def textSheets : List (Str × Sheet Nat) := [("S".toList, demoSheet [.string 0 0 "5".toList none])]

/-- F89: a text that looks like a number is written as this number among the values, where Excel takes texts as
zero. -/
theorem C34_text_number_counterexample :
    valuesSeen textSheets (valuesChart ⟨"S".toList, ⟨0, 0, 0, 0⟩⟩) =
      some [[some ⟨"S".toList, ((0, 0), (0, 0)), false, false, some 1, [(0, "5".toList)]⟩]] ∧
    readContent ((demoSheet [.string 0 0 "5".toList none]).saveRows SST.new) 0 0 = .text "5".toList ∧
    refMeant (shownOn textSheets SST.new) .numbers ⟨"S".toList, ⟨0, 0, 0, 0⟩⟩ =
      ⟨"S".toList, ((0, 0), (0, 0)), false, false, some 1, [(0, "0".toList)]⟩ := by
  refine ⟨?_, ?_, ?_⟩ <;> decide +kernel

/-- A chart with a secondary axis whose title is in a cell. -/
def secondTitleChart : Chart :=
  ({ body :=
      { series := [{ values := { range := ⟨"S".toList, ⟨0, 0, 0, 0⟩⟩ }, secondary := true }]
        y2Axis := { title := { ref := { range := ⟨"S".toList, ⟨0, 0, 0, 0⟩⟩ } } } } } : Chart).addAxisIds 0

/-- F90: the title of a secondary axis that refers to a cell is written without the text of the cell, so that it is
empty until the reader looks at the cell itself. -/
theorem C34_secondary_title_counterexample :
    ((prepareCaches textSheets [secondTitleChart]).bind fun out => out.head?.bind fun c' =>
      ((parseDoc (writePart (chartSpaceTree asciiUnicode demoParses c'))).bind readChart).map fun s =>
        (s.axes.filterMap (·.title)).map fun t => (t.count, t.points)) = some [(none, [])] ∧
    (chartMeant (shownOn textSheets SST.new) secondTitleChart).axes.filterMap (·.title) =
      [⟨"S".toList, ((0, 0), (0, 0)), true, false, some 1, [(0, "5".toList)]⟩] := by
  constructor <;> decide +kernel

/-- A pie chart combined with a column chart. -/
def pieColumn : Chart :=
  ({ body := { group := .pie, series := [{ values := { range := ⟨"S".toList, ⟨0, 0, 0, 0⟩⟩ } }] }
     combined := some { group := .column, series := [{ values := { range := ⟨"S".toList, ⟨0, 0, 0, 0⟩⟩ } }] } } :
    Chart).addAxisIds 0

/-- F91: in a pie chart combined with a column chart the columns are drawn on axes that are not there. -/
theorem C54_pie_column_counterexample :
    ((prepareCaches textSheets [pieColumn]).bind fun out => out.head?.bind fun c' =>
      ((parseDoc (writePart (chartSpaceTree asciiUnicode demoParses c'))).bind readChart).map fun s =>
        (s.groups.map (·.axes), s.axes)) = some ([[], [50000001, 50000002]], []) := by
  decide +kernel

/-- A worksheet that is not there. -/
example : prepareCaches textSheets [valuesChart ⟨"T".toList, ⟨0, 0, 0, 0⟩⟩] = none := by decide +kernel

end Verif
