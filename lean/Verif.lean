import Verif.Builder.Props
import Verif.Builder.PropsMore
import Verif.Runner.Props
import Verif.Runner.PropsBuilt
import Verif.Pipeline.Props
import Verif.Pipeline.PropsRows
import Verif.InstanceSpace.Props
import Verif.Isolation.Props
import Verif.Preprocessing.Props
import Verif.Preprocessing.PropsTwice
import Verif.Preprocessing.PropsOrder
import Verif.Preprocessing.PropsRun
import Verif.Filter.Props
import Verif.Filter.PropsUniformity
import Verif.Filter.PropsOrder
import Verif.Prelim.Props
import Verif.Prelim.PropsData
import Verif.Prelim.PropsBound
import Verif.Prelim.PropsMeasure
import Verif.Prelim.PropsMeta
import Verif.Prelim.PropsNormal
import Verif.Prelim.PropsSubset
import Verif.Metadata.Props
import Verif.Options.Props
import Verif.Cloister.Props
import Verif.Cloister.PropsBox
import Verif.Cloister.PropsOrder
import Verif.Dbscan.Props
import Verif.Dbscan.PropsRadius
import Verif.Trace.Props
import Verif.Trace.PropsSmall
import Verif.Trace.PropsWhich
import Verif.Trace.Summary
import Verif.Trace.PropsTable
import Verif.Pythia.Props
import Verif.Pythia.PropsOrder
import Verif.Pythia.PropsKernel
import Verif.Trace.PropsOrder
import Verif.Trace.PropsPurity
import Verif.Trace.PropsSim
import Verif.Sifted.Props
import Verif.Pilot.Props
import Verif.Export.Props
import Verif.Export.PropsFiles
import Verif.Trace.PropsBuild
import Verif.Options.PropsErrors
import Verif.Options.SpecDocs
import Verif.Options.PropsDocs
import Verif.Export.Graphs
import Verif.Export.GraphLemmas
import Verif.Export.PropsGraphs
import Verif.Export.PropsTitles
import Verif.Export.PropsWeb
import Verif.InstanceSpace.Load
import Verif.InstanceSpace.PropsLoad
import Verif.Pipeline.Whole
import Verif.Pipeline.WholeLemmas
import Verif.Pipeline.PropsWhole
import Verif.Sifted.SpecCorrelation
import Verif.Sifted.PropsCorrelation
import Verif.Sifted.PropsOrder
import Verif.Pilot.SpecVector
import Verif.Pilot.PropsVector
import Verif.Pilot.EckartLemmas
import Verif.Pilot.PropsOptimal
import Verif.Pilot.UniqueLemmas
import Verif.Pilot.PropsUnique
import Verif.Pilot.PropsRows
import Verif.Pilot.PropsComplete
import Verif.Prelim.PropsAlternatives
import Verif.Pythia.PropsSummary
import Verif.Builder.PluginLemmas
import Verif.Builder.PropsPlugin
import Verif.Runner.PropsPlugin
import Verif.Pipeline.PropsPlugin
import Verif.Runner.SpecLatest
import Verif.Runner.LatestLemmas
import Verif.Runner.PropsLatest
import Verif.Pipeline.PropsLatest
import Verif.Wiring.Model
import Verif.Wiring.Tables
import Verif.Wiring.Stages
import Verif.Wiring.Spec
import Verif.Wiring.Lemmas
import Verif.Wiring.Props
import Verif.EndToEnd.Model
import Verif.EndToEnd.Spec
import Verif.EndToEnd.Lemmas
import Verif.EndToEnd.Lemmas2
import Verif.EndToEnd.Lemmas3
import Verif.EndToEnd.Props
import Verif.EndToEnd.PropsLocal
import Verif.EndToEnd.SpecOrder
import Verif.EndToEnd.OrderLemmas
import Verif.EndToEnd.PropsOrder
import Verif.EndToEnd.Files
import Verif.EndToEnd.SpecFiles
import Verif.EndToEnd.FilesLemmas
import Verif.EndToEnd.PropsFiles
import Verif.EndToEnd.RestLemmas
import Verif.EndToEnd.Late
import Verif.EndToEnd.SpecLate
import Verif.EndToEnd.LateLemmas
import Verif.EndToEnd.EntryLemmas
import Verif.EndToEnd.PropsLate
import Verif.EndToEnd.SpecSvm
import Verif.EndToEnd.SvmLemmas
import Verif.EndToEnd.PropsSvm
import Verif.EndToEnd.Footprints
import Verif.EndToEnd.SpecTrace
import Verif.EndToEnd.TraceLemmas
import Verif.EndToEnd.PropsTrace
import Verif.Double.Model
import Verif.Double.Lemmas
import Verif.Double.Prelim
import Verif.Double.PrelimLemmas
import Verif.Double.PropsPrelim
import Verif.Double.PropsBeta
import Verif.Double.Columns
import Verif.Double.ColumnLemmas
import Verif.Double.PropsBound
import Verif.Double.PropsShift
import Verif.Double.PropsColour
import Verif.Double.Shares
import Verif.Double.PropsShares
import Verif.Double.Selection
import Verif.Double.PropsSelection
import Verif.Double.Distance
import Verif.Double.DistanceLemmas
import Verif.Double.PropsDistance
import Verif.Double.Cluster
import Verif.Double.PropsCluster
import Verif.Double.Rounding
import Verif.Double.PropsRounding
import Verif.Double.Dot
import Verif.Double.PropsDot
import Verif.EndToEnd.SpaceLemmas
import Verif.EndToEnd.PropsSpace
import Verif.EndToEnd.PropsSpaceFiles
import Verif.Export.Mat
import Verif.Export.PropsMat
import Verif.EndToEnd.SpecCompletes
import Verif.EndToEnd.CleanLemmas
import Verif.EndToEnd.CompletesLemmas
import Verif.EndToEnd.AssembleLemmas
import Verif.EndToEnd.PropsCompletes
import Verif.EndToEnd.SpecLabels
import Verif.EndToEnd.LabelLemmas
import Verif.EndToEnd.PropsLabels
import Verif.Double.BoundErrorLemmas
import Verif.Double.Boundary
import Verif.Double.PropsBoundary
import Verif.Pilot.Draws
import Verif.Pilot.PropsDraws
import Verif.Pythia.Draws
import Verif.Pythia.PropsDraws
import Verif.Prelim.UnitLemmas
import Verif.Prelim.PropsUnit
import Verif.EndToEnd.SimLemmas
import Verif.EndToEnd.SpecShift
import Verif.EndToEnd.ShiftLemmas
import Verif.EndToEnd.PropsShift
import Verif.Preprocessing.PropsAbsent
import Verif.EndToEnd.SpecAbsent
import Verif.EndToEnd.AbsentLemmas
import Verif.EndToEnd.PropsAbsent
import Verif.Prelim.Recorded
import Verif.Prelim.RecordedLemmas
import Verif.EndToEnd.SpecRecompute
import Verif.EndToEnd.RecomputeLemmas
import Verif.EndToEnd.PropsRecompute
import Verif.EndToEnd.SpecRescore
import Verif.EndToEnd.RescoreLemmas
import Verif.EndToEnd.PropsRescore
import Verif.EndToEnd.SpecTries
import Verif.EndToEnd.TriesLemmas
import Verif.EndToEnd.PropsTries
import Verif.EndToEnd.SpecGrounds
import Verif.EndToEnd.GroundsLemmas
import Verif.EndToEnd.PropsGrounds
import Verif.EndToEnd.SampleLemmas
import Verif.EndToEnd.SpecSample
import Verif.EndToEnd.SubsetLemmas
import Verif.EndToEnd.PropsSample
import Verif.EndToEnd.SpecShape
import Verif.EndToEnd.ShapeLemmas
import Verif.EndToEnd.SpecTally
import Verif.EndToEnd.TallyLemmas
import Verif.EndToEnd.PropsTally
import Verif.EndToEnd.PropsColumns
import Verif.EndToEnd.PropsLevel
import Verif.Pilot.PropsPicture
import Verif.Sifted.SpecCompletes
import Verif.Sifted.PropsCompletes
import Verif.EndToEnd.SpecSelection
import Verif.EndToEnd.PropsSelection
import Verif.EndToEnd.SpecAlike
import Verif.EndToEnd.PropsAlike
import Verif.Pilot.Gaps
import Verif.Pilot.GapsLemmas
import Verif.EndToEnd.SpecGaps
import Verif.EndToEnd.GapsLemmas
import Verif.EndToEnd.PropsGaps
import Verif.EndToEnd.SpecPatchy
import Verif.EndToEnd.PatchyLemmas
import Verif.EndToEnd.PropsPatchy
import Verif.EndToEnd.SpecTwins
import Verif.EndToEnd.PropsTwins
import Verif.EndToEnd.AnyFeatures
import Verif.EndToEnd.SpecAnyFeatures
import Verif.EndToEnd.AnyFeaturesLemmas
import Verif.EndToEnd.PropsAnyFeatures
import Verif.EndToEnd.SpecFit
import Verif.EndToEnd.PropsFit
import Verif.EndToEnd.SpecTop
import Verif.EndToEnd.PropsTop
import Verif.Pilot.SpecGap
import Verif.Pilot.GapLemmas
import Verif.Pilot.PropsGap
import Verif.Trace.SpecMove
import Verif.Trace.MoveLemmas
import Verif.Trace.PropsMove
import Verif.EndToEnd.SpecOracle
import Verif.EndToEnd.OracleLemmas
import Verif.EndToEnd.PropsOracle
import Verif.Trace.SpecWithin
import Verif.Trace.WithinLemmas
import Verif.EndToEnd.SpecWithin
import Verif.EndToEnd.PropsWithin
import Verif.EndToEnd.SpecThreshold
import Verif.EndToEnd.ThresholdLemmas
import Verif.EndToEnd.PropsThreshold
import Verif.Runner.SpecInfluence
import Verif.Runner.InfluenceLemmas
import Verif.Runner.PropsInfluence
import Verif.EndToEnd.SpecInfluence
import Verif.EndToEnd.InfluenceLemmas
import Verif.EndToEnd.PropsInfluence
import Verif.EndToEnd.SpecExtremes
import Verif.EndToEnd.PropsExtremes
import Verif.EndToEnd.SpecPart
import Verif.EndToEnd.PartLemmas
import Verif.EndToEnd.PropsPart
import Verif.EndToEnd.SpecAgain
import Verif.EndToEnd.AgainLemmas
import Verif.EndToEnd.PropsAgain
import Verif.EndToEnd.SpecDropped
import Verif.EndToEnd.PropsDropped
import Verif.EndToEnd.SpecScores
import Verif.EndToEnd.PropsScores
import Verif.Prelim.SpecInfinite
import Verif.Prelim.PropsInfinite
import Verif.EndToEnd.SpecLowest
import Verif.EndToEnd.PropsLowest
import Verif.EndToEnd.SpecLooser
import Verif.EndToEnd.PropsLooser
import Verif.EndToEnd.SpecImproved
import Verif.EndToEnd.PropsImproved
import Verif.EndToEnd.SpecPurer
import Verif.EndToEnd.PropsPurer
import Verif.Cloister.SpecStricter
import Verif.Cloister.StricterLemmas
import Verif.Cloister.PropsStricter
import Verif.EndToEnd.SpecCorrelated
import Verif.EndToEnd.PropsCorrelated
import Verif.EndToEnd.PropsMoreTries
import Verif.Sifted.PropsFewer
import Verif.EndToEnd.PropsFewer
import Verif.EndToEnd.PropsRoom
