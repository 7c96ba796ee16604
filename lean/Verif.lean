import Verif.Model.Outcome
import Verif.Model.Tables
import Verif.Model.Vars
import Verif.Model.Names
import Verif.Model.Taylorlen
import Verif.Model.Api
import Verif.Model.History
import Verif.Model.RatLit
import Verif.Spec.Names
import Verif.Spec.Setup
import Verif.Spec.Which
import Verif.Proofs.Names
import Verif.Proofs.Set
import Verif.Proofs.History
import Verif.Proofs.Setup
import Verif.Props.Settings
import Verif.Props.Setup
import Verif.Model.CTMem
import Verif.Model.CT
import Verif.Model.TMath
import Verif.Spec.Ctaylor
import Verif.Spec.Taylor
import Verif.Proofs.CT
import Verif.Proofs.CTCoef
import Verif.Proofs.CTMem
import Verif.Props.Ctaylor
import Verif.Model.CTMath
import Verif.Model.Expr
import Verif.Spec.Jet
import Verif.Spec.Domain
import Verif.Proofs.Taylor
import Verif.Proofs.Expansions
import Verif.Proofs.Jet
import Verif.Proofs.CTMath
import Verif.Proofs.AD
import Verif.Props.Expansions
import Verif.Model.Densvars
import Verif.Model.Fun.Basic
import Verif.Model.Fun.Exchange
import Verif.Model.Fun.Correlation
import Verif.Model.Fun.Minnesota
import Verif.Model.Fun.Meta
import Verif.Model.Fun.Scan
import Verif.Model.Fun.Table
import Verif.Model.Eval
import Verif.Model.Fun.Kernel
import Verif.Spec.Layout
import Verif.Proofs.Eval
import Verif.Proofs.EvalPartial
import Verif.Proofs.EvalModes
import Verif.Proofs.Uses
import Verif.Proofs.Layout
import Verif.Spec.Energy
import Verif.Proofs.EvalReal
import Verif.Proofs.Partials
import Verif.Proofs.Path
import Verif.Props.Output
import Verif.Spec.Depends
import Verif.Proofs.Depends
import Verif.Proofs.EvalSimp
import Verif.Props.Depends
import Verif.Props.Modes
import Verif.Spec.Field
import Verif.Proofs.Mixed
import Verif.Proofs.Gga
import Verif.Proofs.EvalDie
import Verif.Spec.Accepted
import Verif.Props.Accepted
import Verif.Proofs.Regular
import Verif.Props.Potential
import Verif.Props.Vec
import Verif.Model.Process
import Verif.Model.Threads
import Verif.Spec.Process
import Verif.Proofs.Process
import Verif.Props.Process
import Verif.Proofs.Linear
import Verif.Props.Linear
import Verif.Spec.Members
import Verif.Proofs.Members
import Verif.Props.Densvars
import Verif.Spec.Spin
import Verif.Proofs.Spin
import Verif.Proofs.SpinFun
import Verif.Proofs.SpinEval
import Verif.Props.Spin
import Verif.Spec.Scaling
import Verif.Proofs.Scaling
import Verif.Proofs.ScalingFun
import Verif.Proofs.ScalingEval
import Verif.Proofs.ScalingNeg
import Verif.Props.Scaling
import Verif.Props.ScalingRange
import Verif.Spec.Limits
import Verif.Proofs.Limits
import Verif.Proofs.LimitsEval
import Verif.Props.Limits
import Verif.Model.Enums
import Verif.Props.Enums
import Verif.Model.Python
import Verif.Proofs.Python
import Verif.Props.Python
import Verif.Model.Fortran
import Verif.Props.Fortran
import Verif.Spec.Smooth
import Verif.Proofs.Smooth
import Verif.Proofs.SmoothFun
import Verif.Proofs.CorrNeg
import Verif.Proofs.SmoothGGA
import Verif.Proofs.SmoothMeta
import Verif.Proofs.SmoothScan
import Verif.Proofs.SmoothAll
import Verif.Proofs.SmoothTies
import Verif.Props.Smooth
import Verif.Spec.CorrSign
import Verif.Props.CorrSign
import Verif.Proofs.MetaBounds
import Verif.Props.MetaBounds
import Verif.Spec.Literature
import Verif.Spec.Gas
import Verif.Spec.LiteratureMeta
import Verif.Spec.LiteratureTable
import Verif.Spec.LiteratureDiffer
import Verif.Proofs.LitExchange
import Verif.Proofs.LitCorr
import Verif.Proofs.LitCorr2
import Verif.Proofs.LitMinnesota
import Verif.Proofs.LitTpss
import Verif.Proofs.LitScan
import Verif.Proofs.LitErf
import Verif.Proofs.LitTable
import Verif.Proofs.LitDiffer
import Verif.Props.Literature
import Verif.Props.LiteratureDeriv
import Verif.Spec.Accuracy
import Verif.Proofs.Pade
import Verif.Proofs.PadeFun
import Verif.Proofs.Attenuation
import Verif.Proofs.RangeSep
import Verif.Props.Accuracy
import Verif.Props.RangeSep
import Verif.Model.SelfTest
import Verif.Spec.SelfTest
import Verif.Proofs.SelfTest
import Verif.Props.SelfTest
import Verif.Spec.BeckeRoussel
import Verif.Proofs.BRSolve
import Verif.Proofs.BRGuess
import Verif.Proofs.BRTaylor
import Verif.Proofs.BRAD
import Verif.Proofs.BREval
import Verif.Proofs.BRClose
import Verif.Props.BeckeRoussel
import Verif.Spec.Rounding
import Verif.Proofs.Rounding
import Verif.Proofs.RoundingEval
import Verif.Props.Rounding
import Verif.Spec.SpinScaling
import Verif.Proofs.SpinScaling
import Verif.Props.SpinScaling
import Verif.Proofs.Ball
import Verif.Proofs.BallErf
import Verif.Proofs.BallJet
import Verif.Proofs.Reify
import Verif.Proofs.SelfTestNum
import Verif.Proofs.SelfTestChecks
import Verif.Props.SelfTestPass
import Verif.Proofs.BallCT
import Verif.Proofs.EnergyNum
import Verif.Model.Programs
import Verif.Proofs.Programs
import Verif.Proofs.ProgramsRun
import Verif.Proofs.ProgramsTest
import Verif.Proofs.ProgramsFortran
import Verif.Props.Programs
import Verif.Model.Funeval
import Verif.Spec.Exponents
import Verif.Proofs.Exponents
import Verif.Props.Funeval
import Verif.Model.PyTests
import Verif.Proofs.BallTrig
import Verif.Proofs.PotentialNum
import Verif.Proofs.PyTests
import Verif.Proofs.PyTestsNum
import Verif.Props.PyTests
import Verif.Model.Polymul
import Verif.Spec.Polymul
import Verif.Proofs.PolymulTerms
import Verif.Proofs.PolymulMul
import Verif.Proofs.PolymulRun
import Verif.Proofs.PolymulInplace
import Verif.Proofs.PolymulPoly
import Verif.Proofs.PolymulCompose
import Verif.Proofs.PolymulMore
import Verif.Proofs.PolymulDiff
import Verif.Props.Polymul
import Verif.Props.PolymulAdd
import Verif.Props.PolymulCalculus
import Verif.Proofs.PolymulIndex
import Verif.Props.PolymulIndex
import Verif.Model.TaylorClass
import Verif.Model.TaylorPick
import Verif.Spec.TaylorPoly
import Verif.Proofs.TaylorLine
import Verif.Proofs.TaylorOps
import Verif.Proofs.TaylorExpand
import Verif.Proofs.TaylorStretch
import Verif.Proofs.TaylorAlg
import Verif.Proofs.TaylorFuns
import Verif.Proofs.TaylorBR
import Verif.Proofs.TaylorMore
import Verif.Props.TaylorClass
import Verif.Props.TaylorPick
import Verif.Props.TaylorMath
import Verif.Model.CHost
import Verif.Spec.CommandLine
import Verif.Proofs.CHost
import Verif.Props.CHost
import Verif.Spec.PbeLimits
import Verif.Proofs.PbeLimits
import Verif.Props.PbeLimits
import Verif.Model.MicroMath
import Verif.Proofs.MicroMath
import Verif.Proofs.MicroMathErfc
import Verif.Props.MicroMath
import Verif.Model.PolymulTrans
import Verif.Spec.PolymulTrans
import Verif.Proofs.PolymulTrans
import Verif.Proofs.PolymulTransAll
import Verif.Proofs.PolymulNewEval
import Verif.Props.PolymulTrans
import Verif.Proofs.ErfCorr
import Verif.Props.ErfCorr
import Verif.Spec.RoundedEnergy
import Verif.Proofs.RoundedEnergy
import Verif.Proofs.RoundedFun
import Verif.Props.RoundedEnergy
import Verif.Spec.Hydrogenic
import Verif.Proofs.Hydrogenic
import Verif.Props.Hydrogenic
import Verif.Spec.GradientExpansion
import Verif.Proofs.GradientExpansion
import Verif.Props.GradientExpansion
import Verif.Props.Plot
import Verif.Props.OneElectron
import Verif.Props.GradedOrder
import Verif.Props.LdaPotential
import Verif.Props.Version
import Verif.Props.DocNames
import Verif.Props.RoundedCorr
import Verif.Props.RoundedJet
import Verif.Props.RoundedGrad
import Verif.Props.Cases
import Verif.Props.CasesApi
import Verif.Props.CasesMore
import Verif.Props.CasesLate
