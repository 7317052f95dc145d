import Verif.Lemmas.Binary
import Verif.Lemmas.Header
import Verif.Lemmas.Images
import Verif.Lemmas.Normalize
import Verif.Lemmas.Orientation
import Verif.Lemmas.Rounding
import Verif.Lemmas.Scripts
import Verif.Lemmas.Ssim
import Verif.Lemmas.Sums
import Verif.Lemmas.Text
import Verif.Lemmas.Underflow
import Verif.Model.Basic
import Verif.Model.Batch
import Verif.Model.BatchHistory
import Verif.Model.Border
import Verif.Model.Build
import Verif.Model.CallKeywords
import Verif.Model.ConstructorKeywords
import Verif.Model.CopyImages
import Verif.Model.Csf
import Verif.Model.Dispatch
import Verif.Model.Display
import Verif.Model.Distance
import Verif.Model.DistanceRounded
import Verif.Model.Experimental
import Verif.Model.FigureText
import Verif.Model.Figures
import Verif.Model.Filters
import Verif.Model.Gabor
import Verif.Model.Gsm
import Verif.Model.GsmRounded
import Verif.Model.ImageArray
import Verif.Model.Images
import Verif.Model.Imports
import Verif.Model.Infinite
import Verif.Model.Keywords
import Verif.Model.Loading
import Verif.Model.Mad
import Verif.Model.MadFull
import Verif.Model.MatScript
import Verif.Model.Metric
import Verif.Model.MetricList
import Verif.Model.NegativeWindow
import Verif.Model.Nifti
import Verif.Model.Noise
import Verif.Model.NoiseHalf
import Verif.Model.NoiseRounded
import Verif.Model.NoiseSession
import Verif.Model.Normalize
import Verif.Model.NormalizeNan
import Verif.Model.NormalizeRounded
import Verif.Model.NotANumber
import Verif.Model.NotANumberGsm
import Verif.Model.Notebook
import Verif.Model.OpenFiles
import Verif.Model.PairFile
import Verif.Model.Paths
import Verif.Model.PixelStatistics
import Verif.Model.Printing
import Verif.Model.QMeasure
import Verif.Model.Regions
import Verif.Model.Report
import Verif.Model.ResultFile
import Verif.Model.Rounding
import Verif.Model.Scripts
import Verif.Model.SnrPanel
import Verif.Model.Ssim
import Verif.Model.SsimRounded
import Verif.Model.StatModule
import Verif.Model.Statistics
import Verif.Model.Text
import Verif.Model.Widget
import Verif.Props.Arrangement
import Verif.Props.AutoContrast
import Verif.Props.AutoTurn
import Verif.Props.Average
import Verif.Props.AverageNoise
import Verif.Props.Batch
import Verif.Props.BatchHistory
import Verif.Props.BatchPackage
import Verif.Props.BitDepth
import Verif.Props.BorderRule
import Verif.Props.Borders
import Verif.Props.Build
import Verif.Props.CallKeywords
import Verif.Props.Chain
import Verif.Props.ColourRmse
import Verif.Props.ConstructorKeywords
import Verif.Props.CopyImages
import Verif.Props.CropNoise
import Verif.Props.Csf
import Verif.Props.DataRange
import Verif.Props.Dispatch
import Verif.Props.DispatchMore
import Verif.Props.Display
import Verif.Props.Distance
import Verif.Props.DistanceRounded
import Verif.Props.DistanceSlices
import Verif.Props.DistanceUnderflow
import Verif.Props.Distortion
import Verif.Props.DocExamples
import Verif.Props.Experimental
import Verif.Props.Export
import Verif.Props.FailedReport
import Verif.Props.FewPixels
import Verif.Props.FigureText
import Verif.Props.Figures
import Verif.Props.Filters
import Verif.Props.FinitePixels
import Verif.Props.Gabor
import Verif.Props.GrayOrder
import Verif.Props.Growth
import Verif.Props.Gsm
import Verif.Props.GsmAccuracy
import Verif.Props.GsmParameters
import Verif.Props.GsmRounded
import Verif.Props.GsmStability
import Verif.Props.GsmSymmetry
import Verif.Props.GsmSymmetryRounded
import Verif.Props.GsmTurned
import Verif.Props.ImageArray
import Verif.Props.Images
import Verif.Props.Imports
import Verif.Props.Infinite
import Verif.Props.IntegerOrder
import Verif.Props.Inverted
import Verif.Props.Keywords
import Verif.Props.Loading
import Verif.Props.LoadingMore
import Verif.Props.Locality
import Verif.Props.Mad
import Verif.Props.MadFull
import Verif.Props.MadMonotone
import Verif.Props.MatScript
import Verif.Props.Metric
import Verif.Props.MetricList
import Verif.Props.MhdHeader
import Verif.Props.NegativeWindow
import Verif.Props.Nifti
import Verif.Props.Noise
import Verif.Props.NoiseAccuracy
import Verif.Props.NoiseHalf
import Verif.Props.NoiseHalfCnr
import Verif.Props.NoiseLaws
import Verif.Props.NoiseMore
import Verif.Props.NoiseOrder
import Verif.Props.NoiseRounded
import Verif.Props.NoiseSession
import Verif.Props.Normalize
import Verif.Props.NormalizeNan
import Verif.Props.NormalizeRounded
import Verif.Props.NormalizeSigned
import Verif.Props.NormalizedNoise
import Verif.Props.NormalizedRanking
import Verif.Props.NormalizedSnr
import Verif.Props.NotANumber
import Verif.Props.NotANumberGsm
import Verif.Props.Notebook
import Verif.Props.OpenFiles
import Verif.Props.Orientation
import Verif.Props.PairColumns
import Verif.Props.PairFile
import Verif.Props.Paths
import Verif.Props.PixelStatistics
import Verif.Props.Printing
import Verif.Props.PsnrAccuracy
import Verif.Props.QMeasure
import Verif.Props.Ranges
import Verif.Props.Refusals
import Verif.Props.RegionLocal
import Verif.Props.RegionScores
import Verif.Props.RegionTurn
import Verif.Props.Regions
import Verif.Props.Report
import Verif.Props.ResultFile
import Verif.Props.Scripts
import Verif.Props.SliceMean
import Verif.Props.SlicesPsnr
import Verif.Props.SnrPanel
import Verif.Props.Ssim
import Verif.Props.SsimAccuracy
import Verif.Props.SsimBlind
import Verif.Props.SsimRounded
import Verif.Props.SsimWeights
import Verif.Props.Stability
import Verif.Props.StatModule
import Verif.Props.Statistics
import Verif.Props.StatisticsRmse
import Verif.Props.ThresholdShare
import Verif.Props.Unit
import Verif.Props.Uqi
import Verif.Props.UqiAccuracy
import Verif.Props.UqiRounded
import Verif.Props.Waves
import Verif.Props.Widget
import Verif.Props.Workflow
import Verif.Spec.Binary
import Verif.Spec.Header
import Verif.Spec.Image
import Verif.Spec.Region
import Verif.Spec.Text
import Verif.Audit
