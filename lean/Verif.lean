import Verif.Py.Basic
import Verif.Py.Fl
import Verif.Py.Float64
import Verif.Py.FloatText
import Verif.Py.Regex
import Verif.Model.ActiveTimeSeries
import Verif.Model.Array
import Verif.Model.ArrayHeap
import Verif.Model.Builtin
import Verif.Model.ComplexPower
import Verif.Model.Concurrent
import Verif.Model.ConcurrentExtract
import Verif.Model.ConcurrentSave
import Verif.Model.Correlation
import Verif.Model.CrashExtract
import Verif.Model.CrashSave
import Verif.Model.Describe
import Verif.Model.Draw
import Verif.Model.Extract
import Verif.Model.Files
import Verif.Model.Interact
import Verif.Model.Inversion
import Verif.Model.Lines
import Verif.Model.MaxFile
import Verif.Model.Peaks
import Verif.Model.PeaksJson
import Verif.Model.PeaksShapes
import Verif.Model.PlotKwargs
import Verif.Model.ReadOptions
import Verif.Model.Regions
import Verif.Model.Register
import Verif.Model.Replacement
import Verif.Model.Rounded
import Verif.Model.RoundedCurves
import Verif.Model.Schematic
import Verif.Model.Sensor
import Verif.Model.Settings
import Verif.Model.Spac
import Verif.Model.Spectral
import Verif.Model.Stats
import Verif.Model.Suite
import Verif.Model.SuiteHeap
import Verif.Model.Traces
import Verif.Model.Transform
import Verif.Model.Trimming
import Verif.Model.Workflow
import Verif.Spec.Alias
import Verif.Spec.ArrayHeap
import Verif.Spec.Arrays
import Verif.Spec.Correlation
import Verif.Spec.CrossCorrelation
import Verif.Spec.Describe
import Verif.Spec.Double
import Verif.Spec.Draw
import Verif.Spec.DrawPeaks
import Verif.Spec.Extract
import Verif.Spec.Headers
import Verif.Spec.Inversion
import Verif.Spec.MaxFile
import Verif.Spec.MaxHeader
import Verif.Spec.Noise
import Verif.Spec.Number
import Verif.Spec.Peaks
import Verif.Spec.PlaneWave
import Verif.Spec.PlotKwargs
import Verif.Spec.Power
import Verif.Spec.Pulse
import Verif.Spec.Records
import Verif.Spec.Recount
import Verif.Spec.Regex
import Verif.Spec.Settings
import Verif.Spec.SlantPulse
import Verif.Spec.SourceStated
import Verif.Spec.Spac
import Verif.Spec.Spectrum
import Verif.Spec.Stats
import Verif.Spec.SuiteHeap
import Verif.Spec.Survey
import Verif.Spec.Units
import Verif.Spec.Workflow
import Verif.Lemmas.Array
import Verif.Lemmas.CrossCorr
import Verif.Lemmas.Drop
import Verif.Lemmas.Files
import Verif.Lemmas.Interp
import Verif.Lemmas.Lists
import Verif.Lemmas.MaxLine
import Verif.Lemmas.MaxTable
import Verif.Lemmas.Number
import Verif.Lemmas.Peaks
import Verif.Lemmas.Py
import Verif.Lemmas.Records
import Verif.Lemmas.Regions
import Verif.Lemmas.Sensor
import Verif.Lemmas.Spectral
import Verif.Lemmas.Trim
import Verif.Lemmas.Workflow
import Verif.Lemmas.ZeroPad
import Verif.Props.Alias
import Verif.Props.ArrayHeap
import Verif.Props.ArrayMute
import Verif.Props.ArrayOffsets
import Verif.Props.ArrayStructure
import Verif.Props.ArrayViews
import Verif.Props.BeamOptions
import Verif.Props.Beamforming
import Verif.Props.ChannelOrder
import Verif.Props.CombinedStats
import Verif.Props.Concurrent
import Verif.Props.ConcurrentExtract
import Verif.Props.ConcurrentSave
import Verif.Props.Copies
import Verif.Props.Correlation
import Verif.Props.CrashAgree
import Verif.Props.CrashExtract
import Verif.Props.CrossCorr
import Verif.Props.Describe
import Verif.Props.Extract
import Verif.Props.ExtractNames
import Verif.Props.FileOrder
import Verif.Props.Files
import Verif.Props.Fill
import Verif.Props.Float64
import Verif.Props.FreqMuted
import Verif.Props.FreqParts
import Verif.Props.FreqReturns
import Verif.Props.FreqShares
import Verif.Props.FreqVelocity
import Verif.Props.FrequencyDomain
import Verif.Props.GrowingStack
import Verif.Props.Headers
import Verif.Props.Interact
import Verif.Props.Invariance
import Verif.Props.Inversion
import Verif.Props.Lengths
import Verif.Props.Lines
import Verif.Props.ListedAttributes
import Verif.Props.Looking
import Verif.Props.MaxFile
import Verif.Props.MaxHeader
import Verif.Props.MaxTable
import Verif.Props.MaxWave
import Verif.Props.MeanRecords
import Verif.Props.MutedWave
import Verif.Props.Noise
import Verif.Props.Normalize
import Verif.Props.NumberText
import Verif.Props.OffsetRange
import Verif.Props.OffsetRangeFreq
import Verif.Props.OffsetRangeXcorr
import Verif.Props.OffsetsLast
import Verif.Props.OneAxis
import Verif.Props.OneFile
import Verif.Props.OtherTrials
import Verif.Props.Padding
import Verif.Props.PassedOn
import Verif.Props.PeaksJson
import Verif.Props.PeaksReject
import Verif.Props.PeaksShapes
import Verif.Props.PeaksSimplify
import Verif.Props.PhaseShift
import Verif.Props.PlotKwargs
import Verif.Props.PlotPeaks
import Verif.Props.PlotSuite
import Verif.Props.PlotTransform
import Verif.Props.Power
import Verif.Props.ReadOptions
import Verif.Props.RecordEquality
import Verif.Props.Recount
import Verif.Props.RecountXcorr
import Verif.Props.Recovery
import Verif.Props.Regex
import Verif.Props.Regions
import Verif.Props.Register
import Verif.Props.RejectedPeaks
import Verif.Props.Replacement
import Verif.Props.Rerun
import Verif.Props.RerunFreq
import Verif.Props.RerunXcorr
import Verif.Props.Rewriting
import Verif.Props.RoundedDecimal
import Verif.Props.RoundedFractions
import Verif.Props.RoundedLags
import Verif.Props.RoundedLimits
import Verif.Props.RoundedMute
import Verif.Props.RoundedRecord
import Verif.Props.RoundedSlant
import Verif.Props.RoundedSlantValue
import Verif.Props.RoundedStack
import Verif.Props.RoundedStats
import Verif.Props.RoundedTrim
import Verif.Props.RunReturns
import Verif.Props.SameAxes
import Verif.Props.Schematic
import Verif.Props.Selection
import Verif.Props.Sessions
import Verif.Props.Settings
import Verif.Props.SlantLook
import Verif.Props.SlantMean
import Verif.Props.SlantMeanRun
import Verif.Props.SlantStack
import Verif.Props.SlantVelocity
import Verif.Props.SlantWave
import Verif.Props.Snr
import Verif.Props.SnrEffect
import Verif.Props.SourceOrder
import Verif.Props.SourceSampling
import Verif.Props.SourceStated
import Verif.Props.Spac
import Verif.Props.StackTransform
import Verif.Props.Stacking
import Verif.Props.Stages
import Verif.Props.StatBounds
import Verif.Props.StatOrder
import Verif.Props.Statistics
import Verif.Props.Suite
import Verif.Props.SuiteHeap
import Verif.Props.Survey
import Verif.Props.SurveyRun
import Verif.Props.SurveyStats
import Verif.Props.SurveyWorkflows
import Verif.Props.SweepVelocity
import Verif.Props.TableOrder
import Verif.Props.Times
import Verif.Props.Traces
import Verif.Props.TrialVector
import Verif.Props.TrialVelocities
import Verif.Props.Trim
import Verif.Props.TrimSteps
import Verif.Props.Trimming
import Verif.Props.TrueVelocity
import Verif.Props.Units
import Verif.Props.Waterfall
import Verif.Props.Workflow
import Verif.Props.WorkflowExamples
import Verif.Props.XCorrelate
import Verif.Props.XcorrWorkflow
import Verif.Props.ZeroPad
import Verif.Audit
