import Verif.Py.Basic
import Verif.Py.DictLemmas
import Verif.Py.RangeLemmas
import Verif.Props.WaveformReader
import Verif.Props.Subclasses
import Verif.Props.Detect
import Verif.Model.Hdf5
import Verif.Lemmas.Hdf5
import Verif.Lemmas.Hdf5Session
import Verif.Lemmas.Hdf5Reader
import Verif.Props.Hdf5
import Verif.Props.Chunks
import Verif.Props.Appender
import Verif.Model.Chain
import Verif.Spec.Chain
import Verif.Props.Chain
import Verif.Lemmas.Dl1
import Verif.Lemmas.Dl1Session
import Verif.Model.VersionText
import Verif.Lemmas.VersionText
import Verif.Lemmas.Dl1File
import Verif.Lemmas.Replace
import Verif.Props.Dl1
import Verif.Py.Array
import Verif.Py.Grid
import Verif.Py.Unique
import Verif.Model.WaveformUtils
import Verif.Model.Camera
import Verif.Spec.WaveformUtils
import Verif.Lemmas.Shift
import Verif.Lemmas.Baseline
import Verif.Lemmas.Average
import Verif.Props.WaveformUtils
import Verif.Props.Camera
import Verif.Model.Files
import Verif.Model.PixelMasks
import Verif.Spec.Files
import Verif.Lemmas.Files
import Verif.Lemmas.HvConfig
import Verif.Props.Files
import Verif.Props.FileVersion
import Verif.Props.HvConfig
import Verif.Props.PixelMasks
import Verif.Model.Resolutions
import Verif.Spec.Resolutions
import Verif.Lemmas.Resolutions
import Verif.Props.Resolutions
import Verif.Model.Stats
import Verif.Props.Stats
import Verif.Model.Calib
import Verif.Spec.Calib
import Verif.Props.Calib
import Verif.Props.Sipm
import Verif.Model.Matcher
import Verif.Spec.Matcher
import Verif.Lemmas.Matcher
import Verif.Props.Matcher
import Verif.Model.Reducers
import Verif.Spec.Reducers
import Verif.Lemmas.Reducers
import Verif.Props.Reducers
import Verif.Model.CrossCorr
import Verif.Spec.CrossCorr
import Verif.Lemmas.CrossCorr
import Verif.Props.CrossCorr
import Verif.Model.Timing
import Verif.Spec.Timing
import Verif.Lemmas.Timing
import Verif.Props.Timing
import Verif.Props.RiseTime
import Verif.Props.TimingExact
import Verif.Model.Nnls
import Verif.Spec.Nnls
import Verif.Lemmas.Nnls
import Verif.Props.Nnls
import Verif.Py.Hist
import Verif.Lemmas.Hist
import Verif.Model.LimitCurves
import Verif.Props.LimitCurves
import Verif.Model.SpectrumFitter
import Verif.Spec.SpectrumFitter
import Verif.Lemmas.SpectrumFitter
import Verif.Props.SpectrumFitter
import Verif.Model.ExtractSpe
import Verif.Props.ExtractSpe
import Verif.Model.Spectra
import Verif.Props.Spectra
import Verif.Model.RowColumn
import Verif.Lemmas.RowColumn
import Verif.Props.RowColumn
import Verif.Props.LineCamera
import Verif.Props.SpectrumMass
import Verif.Props.SpectrumLimits
import Verif.Model.Monitor
import Verif.Props.Monitor
import Verif.Model.Waveform
import Verif.Props.Waveform
import Verif.Model.Plotting
import Verif.Props.Plotting
import Verif.Model.Runlist
import Verif.Lemmas.Runlist
import Verif.Props.Runlist
import Verif.Model.ChargeMean
import Verif.Props.ChargeMean
import Verif.Model.TcMapping
import Verif.Lemmas.Mapping
import Verif.Props.Mapping
import Verif.Model.MatcherFile
import Verif.Props.MatcherFile
import Verif.Model.SpeFile
import Verif.Props.SpeFile
import Verif.Model.PartialRead
import Verif.Props.PartialRead
import Verif.Model.NnlsTemplate
import Verif.Props.NnlsTemplate
import Verif.Model.Geometry
import Verif.Props.Geometry
import Verif.Model.ToRoot
import Verif.Props.ToRoot
import Verif.Model.CameraLabels
import Verif.Props.CameraLabels
import Verif.Model.ResolutionPlots
import Verif.Props.ResolutionPlots
import Verif.Model.ShippedReducers
import Verif.Props.ShippedReducers
import Verif.Model.SlidingTimes
import Verif.Props.SlidingTimes
import Verif.Model.MaskPlot
import Verif.Props.MaskPlot
import Verif.Model.ModuleAxes
import Verif.Props.ModuleAxes
import Verif.Model.SaveFigure
import Verif.Props.SaveFigure
import Verif.Model.SimReader
import Verif.Props.SimReader
import Verif.Model.ReadColumns
import Verif.Props.ReadColumns
import Verif.Props.WriterBuffer
import Verif.Props.Pedestal
import Verif.Props.Relabel
import Verif.Props.Gain
import Verif.Props.MatcherEmpty
import Verif.Props.Interpolate
import Verif.Props.RunningStats
import Verif.Props.ExtractPulse
import Verif.Props.MatcherBest
import Verif.Props.MatcherExact
import Verif.Props.Hdf5Mixed
import Verif.Props.Hdf5Closed
import Verif.Props.FitState
import Verif.Spec.Delay
import Verif.Lemmas.Delay
import Verif.Props.Delay
import Verif.Model.ShippedData
import Verif.Props.ShippedData
import Verif.Model.Extraction
import Verif.Props.Extraction
import Verif.Props.Objective
import Verif.Props.QuickSpe
import Verif.Props.OpenFile
import Verif.Props.NnlsConverges
import Verif.Props.GainFile
import Verif.Model.MatcherTables
import Verif.Props.MatcherTables
import Verif.Model.DefaultRun
import Verif.Props.DefaultRun
import Verif.Model.SpeFromDl1
import Verif.Props.SpeFromDl1
import Verif.Props.MatcherFlags
import Verif.Model.ImshowScale
import Verif.Props.ImshowScale
import Verif.Model.PixelSpectrum
import Verif.Props.PixelSpectrum
import Verif.Model.Figures
import Verif.Props.Figures
import Verif.Props.SipmGaps
import Verif.Props.GainProgram
import Verif.Props.ResolutionStatistics
import Verif.Props.MaxEvents
import Verif.Props.RelabelProgram
import Verif.Props.OtherPixels
import Verif.Props.OtherEvents
import Verif.Props.SpectrumOrder
import Verif.Model.TimingPlot
import Verif.Props.TimingPlot
import Verif.Props.TimingUnits
import Verif.Props.NnlsGain
import Verif.Props.MatcherViews
import Verif.Props.ResolutionUnits
import Verif.Props.TimeCorrection
import Verif.Props.Plugins
import Verif.Props.Frames
import Verif.Props.RowLabels
import Verif.Props.GroupImages
import Verif.Props.SimCamera
import Verif.Props.Dl1Images
import Verif.Props.ModuleTables
import Verif.Props.Decorations
import Verif.Props.FileStatistics
import Verif.Props.TioImages
import Verif.Props.NumberText
import Verif.Props.SameSquares
import Verif.Model.FromReader
import Verif.Props.FromReader
import Verif.Model.SimpleLoop
import Verif.Props.SimpleLoop
