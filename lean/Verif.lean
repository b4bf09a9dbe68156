import Verif.Lemmas.Backtest
import Verif.Lemmas.Bocpd
import Verif.Lemmas.Interval
import Verif.Lemmas.LeastSquares
import Verif.Lemmas.MapM
import Verif.Lemmas.Metrics
import Verif.Lemmas.Partition
import Verif.Lemmas.RunProb
import Verif.Lemmas.Thm
import Verif.Lemmas.TimeSeries
import Verif.Model.AnomalyResponse
import Verif.Model.Arima
import Verif.Model.Backtest
import Verif.Model.BayesVar
import Verif.Model.Bocpd
import Verif.Model.BocpdPrior
import Verif.Model.BocpdReg
import Verif.Model.Compat
import Verif.Model.CpEq
import Verif.Model.Cupik
import Verif.Model.Cusum
import Verif.Model.CusumModel
import Verif.Model.CusumVec
import Verif.Model.Decomposition
import Verif.Model.DetectHpt
import Verif.Model.DetectorJson
import Verif.Model.DistDist
import Verif.Model.Dtw
import Verif.Model.EmpCi
import Verif.Model.Ensemble
import Verif.Model.EnsembleInterval
import Verif.Model.Evaluator
import Verif.Model.FeatEng
import Verif.Model.Float
import Verif.Model.GmBacktest
import Verif.Model.GmBatch
import Verif.Model.GmData
import Verif.Model.GmEnsemble
import Verif.Model.GmLoss
import Verif.Model.GmNet
import Verif.Model.GmParam
import Verif.Model.GmPass
import Verif.Model.GmPredict
import Verif.Model.GmS2s
import Verif.Model.GmStd
import Verif.Model.Harmonic
import Verif.Model.Heuristic
import Verif.Model.HoltVar
import Verif.Model.HourlyRatio
import Verif.Model.Hurst
import Verif.Model.Interval
import Verif.Model.KatsEnsemble
import Verif.Model.Kde
import Verif.Model.LeastSquares
import Verif.Model.Lstm
import Verif.Model.MetaData
import Verif.Model.MetaDetect
import Verif.Model.MetaHpt
import Verif.Model.MetaPredict
import Verif.Model.MetaSelect
import Verif.Model.Metrics
import Verif.Model.MlAr
import Verif.Model.MlArCat
import Verif.Model.MlArLog
import Verif.Model.ModelState
import Verif.Model.MultiOutlier
import Verif.Model.NeuralProphet
import Verif.Model.NowcastFeatures
import Verif.Model.Nowcasting
import Verif.Model.OneSample
import Verif.Model.Outlier
import Verif.Model.OutlierModels
import Verif.Model.Partition
import Verif.Model.PctMulti
import Verif.Model.PercentageChange
import Verif.Model.PolyModel
import Verif.Model.PostTypes
import Verif.Model.Postprocess
import Verif.Model.ProphetDetector
import Verif.Model.ProphetModel
import Verif.Model.Py
import Verif.Model.Registry
import Verif.Model.Rename
import Verif.Model.Repivot
import Verif.Model.RobustStat
import Verif.Model.RollingStats
import Verif.Model.RunCov
import Verif.Model.RunProb
import Verif.Model.Seasonality
import Verif.Model.Simulator
import Verif.Model.StatSig
import Verif.Model.Stlf
import Verif.Model.Theta
import Verif.Model.Thm
import Verif.Model.TimeSeries
import Verif.Model.TimeZone
import Verif.Model.TrendMk
import Verif.Model.TsDetect
import Verif.Model.TsInterp
import Verif.Model.TsNowcast
import Verif.Model.TsRoot
import Verif.Model.TsSelect
import Verif.Model.TsStats
import Verif.Model.TsStruct
import Verif.Model.TsTime
import Verif.Model.Tuning
import Verif.Props.AnomalyResponse
import Verif.Props.Arima
import Verif.Props.Backtest
import Verif.Props.BayesVar
import Verif.Props.Bocpd
import Verif.Props.BocpdPrior
import Verif.Props.BocpdReg
import Verif.Props.Compat
import Verif.Props.CpEq
import Verif.Props.Cupik
import Verif.Props.Cusum
import Verif.Props.CusumModel
import Verif.Props.CusumMore
import Verif.Props.CusumVec
import Verif.Props.CusumVecFlag
import Verif.Props.Decomposition
import Verif.Props.DetectHpt
import Verif.Props.DetectorJson
import Verif.Props.DistDist
import Verif.Props.DistDistModel
import Verif.Props.Dtw
import Verif.Props.DtwSearch
import Verif.Props.EmpCi
import Verif.Props.Ensemble
import Verif.Props.EnsembleInterval
import Verif.Props.Evaluator
import Verif.Props.FeatEng
import Verif.Props.GmAdjust
import Verif.Props.GmBatch
import Verif.Props.GmBtEval
import Verif.Props.GmBtInit
import Verif.Props.GmBtRun
import Verif.Props.GmData
import Verif.Props.GmDefaults
import Verif.Props.GmEnsPredict
import Verif.Props.GmEnsSave
import Verif.Props.GmEnsTrain
import Verif.Props.GmEvaluate
import Verif.Props.GmEw
import Verif.Props.GmFeature
import Verif.Props.GmIndices
import Verif.Props.GmInputs
import Verif.Props.GmLeak
import Verif.Props.GmLoader
import Verif.Props.GmLoss
import Verif.Props.GmNet
import Verif.Props.GmNetBound
import Verif.Props.GmNetBuild
import Verif.Props.GmNetCell
import Verif.Props.GmNetEx
import Verif.Props.GmNetPass
import Verif.Props.GmNetPast
import Verif.Props.GmNetRows
import Verif.Props.GmParam
import Verif.Props.GmPass
import Verif.Props.GmPredict
import Verif.Props.GmRun
import Verif.Props.GmS2s
import Verif.Props.GmS2sPass
import Verif.Props.GmS2sRow
import Verif.Props.GmS2sScale
import Verif.Props.GmSingle
import Verif.Props.GmSplit
import Verif.Props.GmStd
import Verif.Props.GmSteps
import Verif.Props.GmTrack
import Verif.Props.Harmonic
import Verif.Props.Heuristic
import Verif.Props.HoltVar
import Verif.Props.HourlyRatio
import Verif.Props.Hurst
import Verif.Props.Interval
import Verif.Props.IntervalMore
import Verif.Props.KatsEnsemble
import Verif.Props.Kde
import Verif.Props.Lstm
import Verif.Props.MetaData
import Verif.Props.MetaDetect
import Verif.Props.MetaDetectSel
import Verif.Props.MetaHpt
import Verif.Props.MetaHptNet
import Verif.Props.MetaHptPred
import Verif.Props.MetaHptTrain
import Verif.Props.MetaPredTrain
import Verif.Props.MetaPredict
import Verif.Props.MetaPrep
import Verif.Props.MetaSelect
import Verif.Props.MetaThreshold
import Verif.Props.MetaTrain
import Verif.Props.Metrics
import Verif.Props.MetricsMore
import Verif.Props.MlAr
import Verif.Props.MlArCat
import Verif.Props.MlArFit
import Verif.Props.MlArLog
import Verif.Props.MlArRows
import Verif.Props.MlArSteps
import Verif.Props.ModelState
import Verif.Props.MultiOutlier
import Verif.Props.NeuralProphet
import Verif.Props.NowcastFeatures
import Verif.Props.Nowcasting
import Verif.Props.OneSample
import Verif.Props.Outlier
import Verif.Props.OutlierModels
import Verif.Props.Partition
import Verif.Props.PctMulti
import Verif.Props.PercentageChange
import Verif.Props.PolyModel
import Verif.Props.PostTypes
import Verif.Props.Postprocess
import Verif.Props.ProphetDetector
import Verif.Props.ProphetModel
import Verif.Props.Registry
import Verif.Props.Rename
import Verif.Props.Repivot
import Verif.Props.RobustStat
import Verif.Props.RollingStatistics
import Verif.Props.RollingStats
import Verif.Props.RunCov
import Verif.Props.RunCovProb
import Verif.Props.RunProb
import Verif.Props.Schema
import Verif.Props.SeasonAcf
import Verif.Props.SeasonFft
import Verif.Props.Simulator
import Verif.Props.Spikes
import Verif.Props.StatSig
import Verif.Props.StatSigBig
import Verif.Props.Stlf
import Verif.Props.Theta
import Verif.Props.Thm
import Verif.Props.ThmAgg
import Verif.Props.ThmMore
import Verif.Props.TimeSeries
import Verif.Props.TimeZone
import Verif.Props.TrendMk
import Verif.Props.TsDetect
import Verif.Props.TsInterp
import Verif.Props.TsNowcast
import Verif.Props.TsRoot
import Verif.Props.TsSelect
import Verif.Props.TsStats
import Verif.Props.TsStats3
import Verif.Props.TsStats4
import Verif.Props.TsStruct
import Verif.Props.TsStruct2
import Verif.Props.TsTime
import Verif.Props.Tuning
import Verif.Spec.Bocpd
import Verif.Spec.Interval
import Verif.Spec.RunProb
