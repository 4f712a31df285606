import Verif.Basic
import Verif.Core
import Verif.Ea
import Verif.Pa
import Verif.Trial
import Verif.CoreInv
import Verif.CoreOps
import Verif.CoreOps2
import Verif.CoreOps3
import Verif.CoreOps4
import Verif.CoreOps5
import Verif.CoreLaws
import Verif.Spec
import Verif.Demo
import Verif.PropsLemmas
import Verif.Props1
import Verif.Props2
import Verif.Props3
import Verif.Values
import Verif.Props4
import Verif.Fit
import Verif.FitLemmas
import Verif.Props5
import Verif.Props6
import Verif.Rand
import Verif.PropsUtil
import Verif.Cond
import Verif.PropsCond
import Verif.Blas
import Verif.PropsBlas
import Verif.Pred
import Verif.PropsPred
import Verif.PropsRls
import Verif.Loss
import Verif.PropsLoss
import Verif.Types
import Verif.PropsTypes
import Verif.Param
import Verif.PropsParam
import Verif.Props7
import Verif.Gp
import Verif.PropsGp
import Verif.Frame
import Verif.Props8
import Verif.Dgp
import Verif.PropsDgp
import Verif.PropsDgp2
import Verif.Props9
import Verif.Env
import Verif.PropsEnv
import Verif.Config
import Verif.PropsConfig
import Verif.Callback
import Verif.PropsCallback
import Verif.Wrapper
import Verif.PropsWrapper
import Verif.NetList
import Verif.PropsNetList
import Verif.Activ
import Verif.PropsActiv
import Verif.NLayer
import Verif.NLayerSpec
import Verif.NLayerLemmas
import Verif.PropsNLayer
import Verif.NNet
import Verif.NGradSpec
import Verif.NGradLemmas
import Verif.PropsNGrad
import Verif.NPool
import Verif.NPoolSpec
import Verif.NPoolLemmas
import Verif.PropsNPool
import Verif.NConv
import Verif.NConvSpec
import Verif.NConvLemmas
import Verif.PropsNConv
import Verif.NConvHist
import Verif.PropsNConvHist
import Verif.NRec
import Verif.NRecSpec
import Verif.NRecLemmas
import Verif.NRecHist
import Verif.NLstmHist
import Verif.PropsNRec
import Verif.NSeqSpec
import Verif.NSeqLemmas
import Verif.NSeqLearn
import Verif.PropsNSeq
import Verif.NGen
import Verif.NGenSpec
import Verif.NGenDims
import Verif.NGenPool
import Verif.NGenLemmas
import Verif.NGenNet
import Verif.PropsNGen
import Verif.NGenLearn
import Verif.NGenLearnSpec
import Verif.NGenLearnLemmas
import Verif.PropsNGenLearn
import Verif.SerialFile
import Verif.SerialFileLemmas
import Verif.Serial
import Verif.SerialSys
import Verif.SerialSpec
import Verif.SerialLemmas
import Verif.SerialSysLemmas
import Verif.SerialNet
import Verif.SerialCut
import Verif.PropsSerial
import Verif.SerialFresh
import Verif.PropsSerialNet
import Verif.Rep
import Verif.RepLemmas
import Verif.PropsRep
import Verif.PropsRep2
import Verif.Report
import Verif.PropsReport
import Verif.NRep
import Verif.NRepSpec
import Verif.NRepNet
import Verif.NRepLemmas
import Verif.PropsNRep
import Verif.NSwitchSpec
import Verif.NSwitchLemmas
import Verif.NSwitchNet
import Verif.NSwitchRates
import Verif.NSwitchSame
import Verif.PropsNSwitch
import Verif.Json
import Verif.JsonLemmas
import Verif.PropsJson
import Verif.ParamJson
import Verif.ParamShape
import Verif.ParamSpec
import Verif.ParamTrip
import Verif.ParamLayers
import Verif.ParamSystem
import Verif.ParamValid
import Verif.PropsParamJson
import Verif.ParamFit
import Verif.PropsParamFit
import Verif.Par
import Verif.ParLemmas
import Verif.ParHist
import Verif.ParRace
import Verif.ParRep
import Verif.PropsPar
import Verif.PropsTune
import Verif.NExpand
import Verif.NExpandSpec
import Verif.NExpandLemmas
import Verif.NExpandSys
import Verif.PropsNExpand
import Verif.NGradGenSpec
import Verif.NGradGenNet
import Verif.NGradGenPool
import Verif.NGradGenLay
import Verif.NGradGenRec
import Verif.PropsNGradGen
import Verif.NValSpec
import Verif.NValLemmas
import Verif.NValRuleSpec
import Verif.NValRuleLemmas
import Verif.PropsNVal
import Verif.PropsNCover
import Verif.PropsReturn
import Verif.Resume
import Verif.PropsResume
import Verif.RepMem
import Verif.RepMemSpec
import Verif.RepMemLemmas
import Verif.RepMemLay
import Verif.RepMemRule
import Verif.RepMemPool
import Verif.PropsRepMem
import Verif.Steps
import Verif.StepsFrame
import Verif.StepsMem
import Verif.StepsSpec
import Verif.StepsSim
import Verif.StepsSim2
import Verif.StepsPhase
import Verif.PropsSteps
import Verif.PropsPickle
import Verif.PropsShadow
import Verif.PropsMetrics
import Verif.PropsViz
import Verif.PropsStats
import Verif.NLstmGradSpec
import Verif.NLstmGrad
import Verif.PropsNLstm
import Verif.NLstmCellSpec
import Verif.NLstmCell
import Verif.PropsNLstmCell
import Verif.JsonNet
import Verif.JsonNetSpec
import Verif.JsonNetLemmas
import Verif.JsonNetSame
import Verif.PropsJsonNet
import Verif.PropsJsonNet2
import Verif.Main
import Verif.MainSpec
import Verif.MainLemmas
import Verif.PropsMain
import Verif.PopFile
import Verif.PropsPopFile
import Verif.PropsReturnNet
import Verif.PropsNStored
import Verif.PropsReportRl
import Verif.Double
import Verif.DoubleLemmas
import Verif.Binary64
import Verif.PropsDouble
import Verif.PropsDoubleTree
import Verif.PropsDoubleMore
import Verif.BadSample
import Verif.PropsBadSample
import Verif.BadInput
import Verif.PropsBadInput
import Verif.BadLinear
import Verif.PropsBadLinear
import Verif.PropsBadReward
import Verif.PropsBadOverflow
import Verif.BadParam
import Verif.PropsBadParam
import Verif.PropsDoubleError
import Verif.BadNeural
import Verif.PropsBadNeural
import Verif.BadNet
import Verif.PropsBadNet
import Verif.BadTree
import Verif.PropsBadTree
import Verif.BadRls
import Verif.PropsBadRls
import Verif.PropsBadTree2
import Verif.PropsBadNet2
import Verif.BadGrad
import Verif.PropsBadNet3
import Verif.PropsBadNet4
import Verif.PropsBadAvg
