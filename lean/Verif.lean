import Verif.Py.Num
import Verif.Model.Cratercount
import Verif.Lemmas.Table
import Verif.Props.Binning
import Verif.Props.History
import Verif.Lemmas.Plot
import Verif.Props.PlotData
import Verif.Lemmas.Range
import Verif.Props.Range
import Verif.Model.Reading
import Verif.Props.Reading
import Verif.Props.Stat
import Verif.Model.Chronology
import Verif.Props.Chronology
import Verif.Model.Production
import Verif.Lemmas.Production
import Verif.Props.Production
import Verif.Props.Tabular
import Verif.Props.Fit
import Verif.Props.Isochron
import Verif.Model.Craterpdf
import Verif.Lemmas.Likelihood
import Verif.Props.Likelihood
import Verif.Props.Resolved
import Verif.Props.Unresolved
import Verif.Props.Gaussian
import Verif.Py.Exc
import Verif.Model.Misc
import Verif.Props.Misc
import Verif.Model.Plotting
import Verif.Props.Ticks
import Verif.Props.Plotting
import Verif.Py.Regex
import Verif.Py.Str
import Verif.Py.Dict
import Verif.Model.Filename
import Verif.Model.Selection
import Verif.Model.Abbrev
import Verif.Model.PlotSpec
import Verif.Props.Filename
import Verif.Props.Selection
import Verif.Props.Abbrev
import Verif.Props.PlotSpec
import Verif.Model.PlotDicts
import Verif.Props.PlotDicts
import Verif.Py.Decimal
import Verif.Model.Isochrons
import Verif.Props.Isochrons
import Verif.Model.Format
import Verif.Props.Format
import Verif.Model.Settings
import Verif.Model.Lookup
import Verif.Props.Settings
import Verif.Model.CommandFile
import Verif.Props.CommandFile
import Verif.Model.TextFile
import Verif.Props.TextFile
import Verif.Py.RegexStar
import Verif.Py.RegexCont
import Verif.Model.TextStructure
import Verif.Props.QuotedSplit
import Verif.Props.TextStructure
import Verif.Props.StructureText
import Verif.Model.Randomness
import Verif.Props.Sprinkle
import Verif.Props.Neighbours
import Verif.Props.Randomness
import Verif.Model.RandomnessFile
import Verif.Props.RandomnessFile
import Verif.Model.Epochs
import Verif.Props.Epochs
import Verif.Model.Legend
import Verif.Props.Legend
import Verif.Model.Summary
import Verif.Model.Scc
import Verif.Props.Summary
import Verif.Props.Scc
import Verif.Model.CountFile
import Verif.Props.CountFile
import Verif.Props.MergedFile
import Verif.Props.StatFile
import Verif.Model.Age
import Verif.Props.Age
import Verif.Model.AgeArea
import Verif.Model.Shade
import Verif.Props.AgeArea
import Verif.Props.Shade
import Verif.Model.Convert
import Verif.Props.Convert
import Verif.Model.SequenceTable
import Verif.Props.SequenceTable
import Verif.Model.Notation
import Verif.Props.Notation
import Verif.Model.PlotSpace
import Verif.Props.PlotSpace
import Verif.Model.Histogram
import Verif.Props.Histogram
import Verif.Model.BinCraters
import Verif.Model.Spatial
import Verif.Model.ShapeCount
import Verif.Props.BinCraters
import Verif.Props.Spatial
import Verif.Props.Resurf
import Verif.Props.OpenCount
import Verif.Model.FileAge
import Verif.Props.FileAge
import Verif.Props.Combine
import Verif.Props.TableRow
import Verif.Props.TableFits
import Verif.Model.MiniPlot
import Verif.Props.MiniPlot
import Verif.Model.LegendText
import Verif.Props.LegendText
import Verif.Model.UserFunctions
import Verif.Model.SigmaPlot
import Verif.Props.UserFunctions
import Verif.Props.TypedCommand
import Verif.Model.PlotObject
import Verif.Props.PlotObject
import Verif.Model.Rims
import Verif.Props.Rims
import Verif.Props.SigmaPlot
import Verif.Model.Output
import Verif.Props.Output
import Verif.Props.EpochPlot
import Verif.Model.ChronCurves
import Verif.Props.ChronCurves
import Verif.Model.SequencePlot
import Verif.Model.SequenceElement
import Verif.Model.Overplot
import Verif.Props.SequencePlot
import Verif.Props.SequenceElement
import Verif.Props.MapDetail
import Verif.Props.MapGrid
import Verif.Props.MapSpace
import Verif.Props.Overplot
import Verif.Model.IsochronPlot
import Verif.Props.IsochronPlot
import Verif.Model.RandomSigma
import Verif.Props.RandomSigma
import Verif.Model.MapPlot
import Verif.Props.MapPlot
import Verif.Model.Images
import Verif.Props.Images
import Verif.Model.Draw
import Verif.Props.Draw
import Verif.Model.Measure
import Verif.Props.Measure
import Verif.Model.Functions
import Verif.Props.Functions
import Verif.Model.CommandLine
import Verif.Props.CommandLine
import Verif.Model.Main
import Verif.Props.Main
import Verif.Model.Run
import Verif.Model.RunFiles
import Verif.Props.Run
import Verif.Props.RunFiles
import Verif.Props.StatAge
import Verif.Props.StatTextAge
import Verif.Props.FileOrder
import Verif.Props.SpatialAge
import Verif.Props.ShapeAge
import Verif.Model.RunAges
import Verif.Props.RunAges
import Verif.Model.FunctionRun
import Verif.Model.Listing
import Verif.Model.EpochRun
import Verif.Props.FunctionRun
import Verif.Props.Listing
import Verif.Props.EpochRun
import Verif.Props.FitRun
import Verif.Props.DiffFitRun
import Verif.Props.ResurfRun
import Verif.Props.FitLimits
import Verif.Props.TableFitRun
import Verif.Props.SigmaStrip
import Verif.Props.FitScaling
import Verif.Props.FitOrder
