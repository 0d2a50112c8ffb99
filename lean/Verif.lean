import Verif.Props.CooSort
import Verif.Props.CooCrs
import Verif.Props.DenseConv
import Verif.Props.CrsCopy
import Verif.Props.Transpose
import Verif.Props.Vector
import Verif.Props.Compare
import Verif.Props.Hash
import Verif.Props.Matvec
import Verif.Props.Matmul
import Verif.Props.Elementwise
import Verif.Props.Reduce
import Verif.Props.Getvec
import Verif.Props.DiagOp
import Verif.Props.Scale
import Verif.Props.Tensor
import Verif.Props.TensorMul
import Verif.Props.TensorCoo
import Verif.Props.TensorCrs
import Verif.Props.TensorCrsCopy
import Verif.Props.TensorCrsMul
import Verif.Props.TensorCrsScale
import Verif.Props.Shared
import Verif.Model.Solver
import Verif.Model.SolverMat
import Verif.Model.Sor
import Verif.Spec.SolverSpec
import Verif.Spec.SorSpec
import Verif.Spec.Ext
import Verif.Lemmas.Solver
import Verif.Lemmas.Ext
import Verif.Lemmas.Sor
import Verif.Props.CG
import Verif.Props.CGExact
import Verif.Props.CGTerm
import Verif.Props.SolverMat
import Verif.Props.BiCG
import Verif.Props.Jacobi
import Verif.Props.Sor
import Verif.Props.SorConv
import Verif.Props.SolverMisc
import Verif.Props.Gen
import Verif.Props.GenRandom
import Verif.Props.GenEig
import Verif.Props.Mm
import Verif.Props.Logger
import Verif.Props.LinOp
import Verif.Props.LinOpMM
import Verif.Props.LinOpNeg
import Verif.Props.LinDiag
import Verif.Props.Mpi
import Verif.Props.Dispatch
import Verif.Props.DispatchComplete
import Verif.Props.Direct
import Verif.Props.DC
import Verif.Props.Lobpcg
import Verif.Props.LobpcgCases
import Verif.Props.View
import Verif.Props.ViewAccess
import Verif.Props.CooCopy
import Verif.Props.CrsAssign
import Verif.Props.EndToEnd
import Verif.Props.Device
import Verif.Props.DeviceNeg
import Verif.Props.Move
import Verif.Props.TensorScale
import Verif.Props.Product
import Verif.Props.Reduction
import Verif.Props.MyCg
import Verif.Props.Print
import Verif.Props.DCExample
import Verif.Props.TemplSolver
import Verif.Props.BiCGTerm
import Verif.Props.LineOp
import Verif.Props.Header
import Verif.Props.Diag
import Verif.Props.History
import Verif.Props.Session
import Verif.Props.SessionCases
import Verif.Props.Machine
import Verif.Props.MachineCrs
import Verif.Props.MachineProg
import Verif.Props.MachineOver
import Verif.Props.Round
import Verif.Props.RoundMore
import Verif.Props.Viewer
import Verif.Props.ViewerSolver
import Verif.Props.ViewerMore
import Verif.Props.CGIter
import Verif.Props.GapViol
import Verif.Props.LobpcgRun
import Verif.Props.SolverOp
import Verif.Props.LogRace
import Verif.Props.SolverDevMain
import Verif.Props.MpiSolverExact
import Verif.Props.Construct
import Verif.Props.Stationary
import Verif.Props.StationaryFp
import Verif.Props.StationaryInf
import Verif.Props.TensorCrsHash
import Verif.Props.MmFile
import Verif.Props.Incomplete
import Verif.Props.IncompleteMore
import Verif.Props.GenTensor
import Verif.Props.GenSpectrum
import Verif.Props.GenSpectrumEx
import Verif.Props.IncompleteDefinite
import Verif.Props.DirectDev
import Verif.Props.DirectChol
import Verif.Props.DirectMixed
import Verif.Props.DirectEig
import Verif.Props.DirectSparse
import Verif.Props.ResidualDev
import Verif.Props.LobpcgDev
import Verif.Props.LobpcgDevNeg
import Verif.Props.LobpcgSame
import Verif.Props.MpiLobpcg
import Verif.Props.MpiLobpcgNeg
import Verif.Props.LobpcgRitz
import Verif.Props.LobpcgImproves
import Verif.Props.LobpcgImprovesCases
import Verif.Props.LobpcgMore
import Verif.Props.LobpcgAbove
import Verif.Props.LobpcgConv
import Verif.Props.LobpcgConvCases
import Verif.Props.LobpcgConvEx
import Verif.Props.DataSize
import Verif.Props.LobpcgBlock
import Verif.Props.LobpcgUnit
import Verif.Props.LobpcgBlockEx
import Verif.Props.LobpcgJacobi
import Verif.Props.LobpcgSor
import Verif.Props.LobpcgSorEig
import Verif.Props.CgSor
import Verif.Props.CgSorRate
import Verif.Props.CgJacobiRate
import Verif.Props.CgSgsDominant
import Verif.Props.CgSsor
import Verif.Props.JacobiRate
import Verif.Props.SorRate
import Verif.Props.EndRate
