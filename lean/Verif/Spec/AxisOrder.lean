import Verif.Spec.ChartOrder
/-!
The order of the elements of axes (C79), from the schema of DrawingML charts, ECMA-376 part 1, A.5.1.
-/
namespace Verif.Spec
open Verif

/-- EG_AxShared. The two elements at the end are a choice. -/
def axisSharedOrder : List Text := ["c:axId".toList, "c:scaling".toList, "c:delete".toList, "c:axPos".toList, "c:majorGridlines".toList,
  "c:minorGridlines".toList, "c:title".toList, "c:numFmt".toList, "c:majorTickMark".toList, "c:minorTickMark".toList, "c:tickLblPos".toList,
  "c:spPr".toList, "c:txPr".toList, "c:crossAx".toList, "c:crosses".toList, "c:crossesAt".toList]

/-- CT_CatAx. -/
def catAxisOrder : List Text := axisSharedOrder ++ ["c:auto".toList, "c:lblAlgn".toList, "c:lblOffset".toList, "c:tickLblSkip".toList,
  "c:tickMarkSkip".toList, "c:noMultiLvlLbl".toList, "c:extLst".toList]

/-- CT_DateAx. -/
def dateAxisOrder : List Text := axisSharedOrder ++ ["c:auto".toList, "c:lblOffset".toList, "c:baseTimeUnit".toList, "c:majorUnit".toList,
  "c:majorTimeUnit".toList, "c:minorUnit".toList, "c:minorTimeUnit".toList, "c:extLst".toList]

/-- CT_ValAx. -/
def valAxisOrder : List Text := axisSharedOrder ++ ["c:crossBetween".toList, "c:majorUnit".toList, "c:minorUnit".toList, "c:dispUnits".toList,
  "c:extLst".toList]

/-- The order of the elements of an axis with this element. -/
def axisOrder (t : Text) : List Text :=
  if t = "c:catAx".toList then catAxisOrder
  else if t = "c:dateAx".toList then dateAxisOrder
  else if t = "c:valAx".toList then valAxisOrder
  else []

/-- CT_Scaling. -/
def scalingOrder : List Text := ["c:logBase".toList, "c:orientation".toList, "c:max".toList, "c:min".toList, "c:extLst".toList]

/-- The elements of an axis and of its scale are in the order of the schema, and each is there at most once; it crosses the other axis at
one place. -/
structure AxisInOrder (kind : Text) (ks : List Node) : Prop where
  order : InOrder (axisOrder kind) [] (tagsOf ks)
  one : "c:crosses".toList ∉ tagsOf ks ∨ "c:crossesAt".toList ∉ tagsOf ks
  scale : ∀ s ∈ elemsIn ["c:scaling".toList] ks, InOrder scalingOrder [] (tagsOf s.2.2)

/-- So are those of all axes of the plot area. -/
def AxesOrdered (area : List Node) : Prop := ∀ e ∈ elemsIn axisTags area, AxisInOrder e.1 e.2.2

end Verif.Spec
