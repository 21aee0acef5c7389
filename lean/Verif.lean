import Verif.Core.Prog
import Verif.Core.Assign
import Verif.Spec.Cart
import Verif.Spec.Sum
import Verif.Model.Bas
import Verif.Model.Fblas
import Verif.Lemmas.Cart
import Verif.Lemmas.Bas
import Verif.Lemmas.Fblas
import Verif.Props.Basis
import Verif.Props.Fblas
import Verif.Core.Frame
import Verif.Model.Sparse
import Verif.Model.Level
import Verif.Lemmas.Sparse
import Verif.Lemmas.Contrib
import Verif.Props.Sparse
import Verif.Model.Loop2e
import Verif.Lemmas.Nest
import Verif.Lemmas.Loop
import Verif.Lemmas.Loop2e
import Verif.Lemmas.Loop2eSpecial
import Verif.Lemmas.Tables
import Verif.Lemmas.Loop2eNopt
import Verif.Lemmas.Demo
import Verif.Spec.Contract
import Verif.Props.Loop2e
import Verif.Model.Nests
import Verif.Lemmas.Nests
import Verif.Lemmas.Loop3c
import Verif.Lemmas.Loop2c
import Verif.Props.Loop1e
import Verif.Props.Loop3c
import Verif.Model.Env
import Verif.Model.Index
import Verif.Lemmas.Index
import Verif.Props.Index
import Verif.Model.PairData
import Verif.Lemmas.PairData
import Verif.Spec.Pair
import Verif.Props.PairData
import Verif.Model.OptLife
import Verif.Lemmas.OptLife
import Verif.Props.OptLife
import Verif.Spec.Boys
import Verif.Model.Boys
import Verif.Lemmas.Boys
import Verif.Props.Boys
import Verif.Model.Norm
import Verif.Props.Norm
import Verif.Spec.Gauss
import Verif.Lemmas.Gauss
import Verif.Lemmas.Tab
import Verif.Model.G1e
import Verif.Lemmas.G1e
import Verif.Lemmas.Gout
import Verif.Lemmas.Ovlp
import Verif.Core.Writes
import Verif.Model.Out
import Verif.Spec.Out
import Verif.Lemmas.Out
import Verif.Lemmas.OutStage
import Verif.Props.Out
import Verif.Model.Drv1e
import Verif.Lemmas.Drv1e
import Verif.Lemmas.DrvOut
import Verif.Props.Ovlp
import Verif.Props.OvlpSym
import Verif.Core.Fill
import Verif.Model.Oper
import Verif.Lemmas.Oper
import Verif.Lemmas.OperProg
import Verif.Spec.Oper
import Verif.Model.Auto1e
import Verif.Lemmas.OperKey
import Verif.Lemmas.OperPoly
import Verif.Lemmas.OperSum
import Verif.Lemmas.OperEval
import Verif.Props.Oper
import Verif.Props.OperAct
import Verif.Model.C2sTable
import Verif.Model.Sph
import Verif.Spec.Sph
import Verif.Spec.Harmonic
import Verif.Lemmas.Sph
import Verif.Lemmas.SphBlock
import Verif.Lemmas.Harmonic
import Verif.Lemmas.DrvSph
import Verif.Props.Sph
import Verif.Props.SphDrv
import Verif.Model.Ssc
import Verif.Props.Ssc
import Verif.Model.Nuc
import Verif.Spec.Coulomb
import Verif.Lemmas.NucTab
import Verif.Lemmas.Coulomb
import Verif.Lemmas.Nuc
import Verif.Lemmas.RysExist
import Verif.Props.Nuc
import Verif.Spec.Rys2
import Verif.Spec.Moment2
import Verif.Spec.Eri
import Verif.Model.G2eExpr
import Verif.Model.Unrolled
import Verif.Model.G2e
import Verif.Lemmas.Bivar
import Verif.Lemmas.Eri
import Verif.Lemmas.G2eTab
import Verif.Lemmas.G2eHrr
import Verif.Lemmas.Unrolled
import Verif.Lemmas.Moment2
import Verif.Props.G2e
import Verif.Lemmas.EriVal
import Verif.Lemmas.G2eRoot
import Verif.Lemmas.EriQuad
import Verif.Model.Int2e
import Verif.Lemmas.EriKernel
import Verif.Lemmas.Drv2e
import Verif.Lemmas.DrvOut2
import Verif.Props.Eri
import Verif.Props.EriExact
import Verif.Props.Linear
import Verif.Core.Touch
import Verif.Model.Scratch
import Verif.Props.Scratch
import Verif.Lemmas.Touch
import Verif.Lemmas.TouchKernel
import Verif.Props.Concurrent
import Verif.Lemmas.OutGen
import Verif.Model.Int2eOpt
import Verif.Lemmas.Int2eOpt
import Verif.Lemmas.OptBuild
import Verif.Lemmas.OptVal
import Verif.Props.Opt2e
import Verif.Props.Opt2eDemo
import Verif.Model.Int3c2e
import Verif.Lemmas.Nest3Cache
import Verif.Lemmas.Drv3c
import Verif.Props.Eri3
import Verif.Model.Int2c2e
import Verif.Lemmas.Kern2c
import Verif.Lemmas.Drv2c
import Verif.Props.Eri2c
import Verif.Model.OptIdx
import Verif.Lemmas.OptIdx
import Verif.Model.Int2c2eOpt
import Verif.Lemmas.Drv2cOpt
import Verif.Props.Opt2c
import Verif.Model.Int3c2eOpt
import Verif.Lemmas.Drv3cOpt
import Verif.Props.Opt3c
import Verif.Spec.Triple
import Verif.Model.Int3c1e
import Verif.Lemmas.G3c1e
import Verif.Lemmas.Kern3c1e
import Verif.Lemmas.Drv3c1e
import Verif.Props.Int3c1e
import Verif.Props.Cutoff
import Verif.Model.Wrap
import Verif.Props.Wrap
import Verif.Model.Grids
import Verif.Spec.GridPot
import Verif.Lemmas.GridsTab
import Verif.Lemmas.GridsNest
import Verif.Lemmas.GridsBlock
import Verif.Lemmas.GridsLoop
import Verif.Lemmas.GridsEval
import Verif.Lemmas.GridsOut
import Verif.Lemmas.GridsDrv
import Verif.Lemmas.GridsTrans
import Verif.Lemmas.GridsPot
import Verif.Lemmas.GridsVal
import Verif.Props.Grids
import Verif.Core.Adds
import Verif.Model.CjTable
import Verif.Model.Spinor
import Verif.Model.AutoSp1e
import Verif.Spec.Spinor
import Verif.Spec.SpinorFn
import Verif.Spec.SpinHarm
import Verif.Lemmas.SpKer
import Verif.Lemmas.SpKet
import Verif.Lemmas.SpBra1
import Verif.Lemmas.ZOut
import Verif.Lemmas.ZStage
import Verif.Lemmas.SpTwo
import Verif.Lemmas.DrvSp1e
import Verif.Lemmas.SpinorFn
import Verif.Lemmas.SpHarm
import Verif.Props.Spinor
import Verif.Props.SpinHarm
import Verif.Lemmas.ZGen
import Verif.Lemmas.DrvSp2
import Verif.Spec.Spin3
import Verif.Lemmas.DrvSp3
import Verif.Spec.Spin4
import Verif.Lemmas.DrvSp4
import Verif.Spec.SpinEri
import Verif.Props.SpinorEri
import Verif.Props.SpinorEri3
import Verif.Props.SpinorOpt
import Verif.Spec.OperV
import Verif.Model.AutoNuc
import Verif.Lemmas.OperAdd
import Verif.Lemmas.PotGrad
import Verif.Lemmas.OperVKey
import Verif.Lemmas.OperRys
import Verif.Lemmas.OperV
import Verif.Lemmas.OperVEval
import Verif.Props.OperV
import Verif.Props.OperVGrad
import Verif.Model.Oper2
import Verif.Model.Auto2e
import Verif.Spec.Oper2
import Verif.Lemmas.Oper2Key
import Verif.Lemmas.Oper2Match
import Verif.Lemmas.Oper2MatchGrad
import Verif.Lemmas.Oper2Val
import Verif.Lemmas.Oper2Eval
import Verif.Lemmas.Oper2Drv
import Verif.Props.Oper2
import Verif.Model.Auto3c2e
import Verif.Model.Auto2c2e
import Verif.Spec.Oper3
import Verif.Lemmas.Oper3Drv
import Verif.Lemmas.Oper3Match
import Verif.Lemmas.Oper2cDrv
import Verif.Props.Oper3
import Verif.Props.Oper2c
import Verif.Model.GridsSpinor
import Verif.Lemmas.SpGrids
import Verif.Lemmas.ZGrids
import Verif.Lemmas.ZGridsDrv
import Verif.Lemmas.SpinorFnV
import Verif.Spec.SpinorFnV
import Verif.Props.GridsSpinor
import Verif.Props.SpinorNuc
import Verif.Model.Int4c1e
import Verif.Lemmas.Loop4c1e
import Verif.Lemmas.G4c1e
import Verif.Lemmas.Kern4c1e
import Verif.Lemmas.Drv4c1e
import Verif.Spec.Quad
import Verif.Props.Int4c1e
import Verif.Model.Auto3c1e
import Verif.Model.Oper31
import Verif.Spec.Oper31
import Verif.Lemmas.Oper31Match
import Verif.Lemmas.Oper31
import Verif.Props.Oper31
import Verif.Model.AutoSp2e
import Verif.Spec.SpinorFn2
import Verif.Lemmas.SpinorFn2
import Verif.Props.SpinorOper2
import Verif.Props.SpinorOper3
import Verif.Model.WrapSp
import Verif.Props.WrapSp
import Verif.Model.SscSp
import Verif.Lemmas.DrvSpSsc
import Verif.Props.SscSpinor
import Verif.Model.OperGrids
import Verif.Lemmas.OperGridsStep
import Verif.Lemmas.OperGridsEval
import Verif.Lemmas.OperGridsVal
import Verif.Spec.OperGrids
import Verif.Props.OperGrids
import Verif.Model.RysSchmidt
import Verif.Spec.RysRoots
import Verif.Lemmas.RysGauss
import Verif.Lemmas.RysSchmidt
import Verif.Props.RysSchmidt
import Verif.Props.RysDispatch
import Verif.Model.GoutSimd
import Verif.Lemmas.GoutSimd
import Verif.Props.GoutSimd
import Verif.Props.GoutSimdEri
import Verif.Model.WrapOpt
import Verif.Props.WrapOpt
import Verif.Spec.F12
import Verif.Model.F12
import Verif.Lemmas.F12Pot
import Verif.Lemmas.DrvF12
import Verif.Lemmas.F12Kernel
import Verif.Lemmas.F12Exist
import Verif.Props.F12
import Verif.Spec.F12Oper
import Verif.Model.F12Oper
import Verif.Lemmas.F12Oper
import Verif.Props.F12Oper
import Verif.Model.Breit
import Verif.Lemmas.Breit
import Verif.Props.Breit
import Verif.Props.BreitVal
import Verif.Props.BreitFree
import Verif.Model.PolyFits
import Verif.Lemmas.PolyFits
import Verif.Props.PolyFits
import Verif.Lemmas.GolubWelsch
import Verif.Lemmas.WheelerMath
import Verif.Model.Wheeler
import Verif.Lemmas.Wheeler
import Verif.Props.Wheeler
import Verif.Lemmas.DiscreteCos
import Verif.Model.StgRoots
import Verif.Lemmas.StgRoots
import Verif.Props.StgRoots
