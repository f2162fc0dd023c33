import Verif.Props.Vlc
import Verif.Props.Dispose
import Verif.Props.StartCode
import Verif.Props.EsUnit
import Verif.Props.Output
import Verif.Props.Dpb
import Verif.Props.SeqHeader
import Verif.Props.PicHeader
import Verif.Props.PicHeaderRound
import Verif.Props.Layout
import Verif.Props.Padding
import Verif.Props.Xlist
import Verif.Props.ThreadPool
import Verif.Props.Open
import Verif.Props.AecCtx
import Verif.Props.AecRead
import Verif.Props.Aec
import Verif.Props.AecBatch
import Verif.Props.Mc
import Verif.Props.Mv
import Verif.Props.Transform
import Verif.Props.Quant
import Verif.Props.Recon
import Verif.Props.Deblock
import Verif.Props.DeblockOrder
import Verif.Props.Quadtree
import Verif.Props.Units
import Verif.Props.IntraMode
import Verif.Props.Intra
import Verif.Props.Slice
import Verif.Props.Sao
import Verif.Props.Alf
import Verif.Props.LoopRegions
import Verif.Props.LoopRows
import Verif.Props.AecCoeffs
import Verif.Props.AecSyntax
import Verif.Props.Player
import Verif.Props.Md5
import Verif.Props.Tool
import Verif.Props.WriteFrame
import Verif.Props.RowWait
import Verif.Props.DeblockEdge
import Verif.Props.BinariseUse
import Verif.Props.CoeffCode
import Verif.Props.VecAlf
import Verif.Props.VecDeblock
import Verif.Props.VecSao
import Verif.Props.VecInter
import Verif.Props.Motion
import Verif.Props.IntraPicture
import Verif.Props.SkipModes
import Verif.Props.MotionRules
import Verif.Props.MotionExplicit
import Verif.Model.SimdProg
import Verif.Model.SimdIdct16
import Verif.Model.SimdIdct32
import Verif.Model.SimdIdct32x8
import Verif.Model.SimdIdctAvx
import Verif.Model.SimdWavelet
import Verif.Model.SimdSecond
import Verif.Model.SimdTable
import Verif.Props.SimdIdct
import Verif.Model.CuSyntax
import Verif.Model.SliceSyntax
import Verif.Spec.CuSyntax
import Verif.Spec.SliceSyntax
import Verif.Props.CuSyntax
import Verif.Spec.ArithEnc
import Verif.Lemmas.ArithEnc
import Verif.Props.ArithEnc
import Verif.Model.InterPred
import Verif.Spec.InterPred
import Verif.Lemmas.InterPred
import Verif.Props.InterPred
import Verif.Lemmas.VpCheck
import Verif.Lemmas.VpDigits
import Verif.Lemmas.VpFrame
import Verif.Lemmas.VpOps
import Verif.Lemmas.VpRel
import Verif.Lemmas.VpRunA1
import Verif.Lemmas.VpRunA2
import Verif.Lemmas.VpRunA3
import Verif.Lemmas.VpRunA4
import Verif.Lemmas.VpRunA5
import Verif.Lemmas.VpRunA6
import Verif.Lemmas.VpRunS1
import Verif.Lemmas.VpRunS2
import Verif.Lemmas.VpRunS3
import Verif.Lemmas.VpRunS4
import Verif.Lemmas.VpRunS5
import Verif.Lemmas.VpSim
import Verif.Lemmas.VpSpec
import Verif.Lemmas.VpStmt
import Verif.Lemmas.VpSym
import Verif.Model.VecProg
import Verif.Model.VpAvxX
import Verif.Model.VpAvxXY
import Verif.Model.VpAvxY
import Verif.Model.VpSseX
import Verif.Model.VpSseXY
import Verif.Model.VpSseY
import Verif.Model.VpTable
import Verif.Props.VecPredict
import Verif.Lemmas.VecIntraBi
import Verif.Lemmas.VecIntraBorder
import Verif.Lemmas.VecIntraFlat
import Verif.Model.VecIntra
import Verif.Props.VecIntra
import Verif.Model.VecAdd
import Verif.Lemmas.VecAdd
import Verif.Props.VecAdd
import Verif.Model.AsmIdct
import Verif.Lemmas.AsmIdct
import Verif.Lemmas.AsmIdct8
import Verif.Props.AsmIdct
import Verif.Model.MemAsm
import Verif.Spec.MemCopy
import Verif.Lemmas.MemAsm
import Verif.Props.MemAsm
import Verif.Model.BlockCopy
import Verif.Lemmas.BlockCopy
import Verif.Props.BlockCopy
import Verif.Model.RowCopy
import Verif.Props.RowCopy
import Verif.Model.CpuDetect
import Verif.Spec.CpuFeatures
import Verif.Props.CpuDetect
import Verif.Model.Ownership
import Verif.Props.Ownership
import Verif.Model.UserData
import Verif.Props.UserData
import Verif.Model.Resize
import Verif.Props.Resize
import Verif.Model.PoolExit
import Verif.Props.PoolExit
import Verif.Props.DpbStall
import Verif.Model.ParseSignal
import Verif.Props.ParseSignal
import Verif.Model.Locks
import Verif.Props.Locks
