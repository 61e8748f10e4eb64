import Verif.Props.Ref
import Verif.Props.Xml
import Verif.Props.Sheet
import Verif.Props.Misc
import Verif.Props.Border
import Verif.Props.Cols
import Verif.Props.Anchor
import Verif.Props.Outline
import Verif.Props.DateTime
import Verif.Props.Refusal
import Verif.Props.Dims
import Verif.Props.StreamDims
import Verif.Props.Spans
import Verif.Props.View
import Verif.Props.Names
import Verif.Props.DefinedNames
import Verif.Props.Notes
import Verif.Props.Package
import Verif.Props.PackageTypes
import Verif.Props.PackageClosed
import Verif.Props.Style
import Verif.Props.Merge
import Verif.Props.RowCol
import Verif.Props.Url
import Verif.Props.Formula
import Verif.Props.MergeRange
import Verif.Props.Table
import Verif.Props.TableCells
import Verif.Props.TableShow
import Verif.Props.TablePart
import Verif.Props.Dxf
import Verif.Props.FilterPart
import Verif.Props.ChartDemo
import Verif.Props.ChartRange
import Verif.Props.Sparkline
import Verif.Props.CondRule
import Verif.Props.CondPart
import Verif.Props.CondOk
import Verif.Props.Cond
import Verif.Props.CondExt
import Verif.Props.CondDemo
import Verif.Spec.Stream
import Verif.Lemmas.Stream
import Verif.Lemmas.StreamFlush
import Verif.Lemmas.StreamStep
import Verif.Lemmas.StreamExec
import Verif.Lemmas.StreamRun
import Verif.Lemmas.StreamBook
import Verif.Lemmas.StreamLast
import Verif.Lemmas.StreamSaved
import Verif.Props.Stream
import Verif.Props.Image
import Verif.Props.ImageSize
import Verif.Props.Saves
import Verif.Props.SaveLists
import Verif.Spec.FormulaLang
import Verif.Spec.CondFormula
import Verif.Props.CondFormula
import Verif.Props.CondDates
import Verif.Props.CondMeaning
import Verif.Props.CondPeriod
import Verif.Props.CondValue
import Verif.Model.DataValid
import Verif.Spec.DataValid
import Verif.Props.DataValid
import Verif.Props.DataValidPart
import Verif.Props.DataValidRun
import Verif.Model.Setup
import Verif.Spec.Setup
import Verif.Props.HeaderFooter
import Verif.Props.SetupRun
import Verif.Props.SetupPart
import Verif.Props.PageSetup
import Verif.Props.ViewSetup
import Verif.Props.ProtectSetup
import Verif.Props.IgnoreSetup
import Verif.Model.CellXml
import Verif.Spec.CellXml
import Verif.Lemmas.CellNumber
import Verif.Lemmas.CellTree
import Verif.Lemmas.RichString
import Verif.Lemmas.CellRead
import Verif.Lemmas.RowRead
import Verif.Lemmas.CellHold
import Verif.Lemmas.CellSaved
import Verif.Lemmas.RowSet
import Verif.Lemmas.SstCount
import Verif.Props.CellXml
import Verif.Props.SstCount
import Verif.Model.Serialize
import Verif.Spec.Serialize
import Verif.Lemmas.Serialize
import Verif.Props.Serialize
import Verif.Props.SerializeCells
import Verif.Model.WorkbookPart
import Verif.Spec.WorkbookPart
import Verif.Props.WorkbookPart
import Verif.Props.WorkbookRun
import Verif.Model.DocProps
import Verif.Spec.DocProps
import Verif.Props.DocProps
import Verif.Model.DateText
import Verif.Spec.DateText
import Verif.Props.DateText
import Verif.Spec.Totals
import Verif.Props.Totals
import Verif.Model.WriteSeq
import Verif.Spec.WriteSeq
import Verif.Props.WriteSeq
import Verif.Model.Drawing
import Verif.Spec.Drawing
import Verif.Props.DrawFill
import Verif.Props.DrawText
import Verif.Props.Drawing
import Verif.Model.ChartFmt
import Verif.Spec.ChartFmt
import Verif.Props.ChartFmt
import Verif.Props.ChartAxis
import Verif.Props.ChartAxes
import Verif.Props.ChartAxesDemo
import Verif.Model.ChartSeries
import Verif.Spec.ChartSeries
import Verif.Props.ChartSeriesPart
import Verif.Props.ChartSeriesRead
import Verif.Props.ChartSeriesElem
import Verif.Props.ChartSeriesCalls
import Verif.Props.ChartSeries
import Verif.Props.ChartSeriesDemo
import Verif.Spec.NewAxes
import Verif.Props.NewAxes
import Verif.Model.ChartGroups
import Verif.Spec.ChartGroups
import Verif.Props.ChartGroups
import Verif.Props.ChartWhole
import Verif.Props.ChartWholeDemo
import Verif.Spec.ChartOrder
import Verif.Props.ChartOrder
import Verif.Props.ChartSeriesOrder
import Verif.Spec.AxisOrder
import Verif.Props.ChartAxisOrder
