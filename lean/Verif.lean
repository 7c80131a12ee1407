import Verif.Props.Average
import Verif.Props.AverageFiles
import Verif.Props.AverageLaws
import Verif.Props.AverageTotals
import Verif.Props.AverageUnits
import Verif.Props.Cli
import Verif.Props.Collecting
import Verif.Props.CombineLaws
import Verif.Props.CommandRuns
import Verif.Props.CommandSeries
import Verif.Props.Commands
import Verif.Props.Concurrent
import Verif.Props.ContactLine
import Verif.Props.ContactLineFiles
import Verif.Props.ContactLineMerge
import Verif.Props.ContactLinePipeline
import Verif.Props.Driver
import Verif.Props.Figure
import Verif.Props.Files
import Verif.Props.FloatAngles
import Verif.Props.FloatAverage
import Verif.Props.FloatEdges
import Verif.Props.FloatFiles
import Verif.Props.FloatGrid
import Verif.Props.FloatInterface
import Verif.Props.FloatMaps
import Verif.Props.FloatSample
import Verif.Props.FloatSpreading
import Verif.Props.Flow
import Verif.Props.FlowUnits
import Verif.Props.Gmx
import Verif.Props.GmxCut
import Verif.Props.GmxHeader
import Verif.Props.Grace
import Verif.Props.Groups
import Verif.Props.Headers
import Verif.Props.Ieee
import Verif.Props.Interface
import Verif.Props.InterfaceAngles
import Verif.Props.InterfaceFiles
import Verif.Props.InterfaceSeries
import Verif.Props.InterfaceShape
import Verif.Props.InterfaceStored
import Verif.Props.InterfaceStrict
import Verif.Props.InterfaceText
import Verif.Props.InterfaceUnits
import Verif.Props.InterfaceView
import Verif.Props.Killed
import Verif.Props.KilledSeries
import Verif.Props.Layout
import Verif.Props.Longer
import Verif.Props.Mirror
import Verif.Props.ReadFiles
import Verif.Props.Recenter
import Verif.Props.RecenterEdges
import Verif.Props.Resample
import Verif.Props.ResampleInt
import Verif.Props.ResampleUnits
import Verif.Props.Rigid
import Verif.Props.SameAverages
import Verif.Props.SameInterfaces
import Verif.Props.SameMaps
import Verif.Props.Sample
import Verif.Props.SampleAngle
import Verif.Props.SampleAngleAll
import Verif.Props.SampleParts
import Verif.Props.SampleSeries
import Verif.Props.SampleSeriesUnits
import Verif.Props.SampleUnits
import Verif.Props.SavedRuns
import Verif.Props.Simple
import Verif.Props.SimpleAverage
import Verif.Props.SimpleCut
import Verif.Props.SimpleGrid
import Verif.Props.SimpleUnits
import Verif.Props.Spreading
import Verif.Props.SpreadingEdges
import Verif.Props.SpreadingFiles
import Verif.Props.SpreadingFit
import Verif.Props.SpreadingMaps
import Verif.Props.SpreadingOffset
import Verif.Props.SpreadingText
import Verif.Props.SpreadingUnits
import Verif.Props.Stored
import Verif.Props.StoredAverage
import Verif.Props.StreamPlot
import Verif.Props.Streamlines
import Verif.Props.Turned
import Verif.Props.TurnedAngles
import Verif.Props.View
import Verif.Props.ViewFlow
import Verif.Props.ViewMap
import Verif.Props.ViewMapCutoff
import Verif.Props.ViewUnits
import Verif.Props.Watched
import Verif.Conformance.Angles
import Verif.Conformance.Average
import Verif.Conformance.ContactLine
import Verif.Conformance.Flow
import Verif.Conformance.Interface
import Verif.Conformance.Sample
import Verif.Conformance.Simple
import Verif.Conformance.Spreading
import Verif.Conformance.Utils
