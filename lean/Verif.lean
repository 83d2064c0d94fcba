import Verif.Props.Powi
import Verif.Props.Lambda
import Verif.Props.CompDerivs
import Verif.Props.IterationJv
import Verif.Props.Virial
import Verif.Props.Isochoric
import Verif.Props.Cubic
import Verif.Props.Superanc
import Verif.Props.Mixing
import Verif.Props.Numerics
import Verif.Props.Ideal
import Verif.Props.Reducing
import Verif.Props.ReducingFn
import Verif.Props.Residual
import Verif.Props.EosBuild
import Verif.Props.PowerSplit
import Verif.Props.MultiFluid
import Verif.Props.Components
import Verif.Props.PureVLE
import Verif.Props.PureCritical
import Verif.Props.MixVLE
import Verif.Props.MixSolver
import Verif.Props.Envelope
import Verif.Props.Dilute
import Verif.Props.TraceVLE
import Verif.Props.EnvelopeFinite
import Verif.Props.CritEigen
import Verif.Props.CritTangent
import Verif.Props.CritTrace
import Verif.Props.CritStall
import Verif.Props.VLLE
import Verif.Props.VLLEFind
import Verif.Props.VLLETrace
import Verif.Props.PhaseEquil
import Verif.Props.PhaseEquilSys
import Verif.Props.PhaseEquilR
import Verif.Props.Iterate
import Verif.Props.CApi
import Verif.Props.CApiConc
import Verif.Props.Factory
import Verif.Props.Newton
import Verif.Props.Ancillary
import Verif.Props.Activity
import Verif.Props.Assoc
import Verif.Model.Dufal
import Verif.Props.Dufal
import Verif.Props.AssocAlphar
import Verif.Model.AssocReport
import Verif.Model.SVRReport
import Verif.Model.PENumJac
import Verif.Props.AssocReport
import Verif.Props.SVRReport
import Verif.Props.PENumJac
import Verif.Props.AssocSites
import Verif.Props.AssocVirial
import Verif.Lemmas.MassActionDeriv
import Verif.Props.AssocDeriv
import Verif.Props.CPA
import Verif.Props.CPAFactory
import Verif.Props.PCSAFT
import Verif.Props.CPARead
import Verif.Props.CPAGas
import Verif.Props.CorrInt
import Verif.Props.CorrConvex
import Verif.Props.CorrVals
import Verif.Props.CorrSign
import Verif.Props.CorrAgree
import Verif.Model.QCRK
import Verif.Props.QCRK
import Verif.Props.QCVirial
import Verif.Props.QCSat
import Verif.Props.PowerPoly
import Verif.Props.Polar
import Verif.Props.Multipolar
import Verif.Props.MultipolarGrad
import Verif.Props.MultipolarZero
import Verif.Props.PolarStates
import Verif.Props.SquareWell
import Verif.Props.LKP
import Verif.Props.MultiFluidExt
import Verif.Props.PolarSum
import Verif.Props.LennardJones
import Verif.Props.ExtInput
import Verif.Props.TwoCenter
import Verif.Props.TwoCenterLimits
import Verif.Props.Potentials
import Verif.Props.Mie
import Verif.Props.Composite
import Verif.Model.GERGTables
import Verif.Model.GERG
import Verif.Props.GERGTables
import Verif.Props.GERGPure
import Verif.Props.GERGMix
import Verif.Props.GERGIdeal
import Verif.Props.GERGShape
import Verif.Props.GERGCombine
import Verif.Model.SAFTVRMie
import Verif.Model.SVRFactory
import Verif.Props.SVRDerivs
import Verif.Props.SVRLimits
import Verif.Props.SVRMix
import Verif.Props.SVRDiameter
import Verif.Props.SVRFactory
import Verif.Props.SVRHalley
import Verif.Props.SVREntries
import Verif.Lemmas.MieHalley
import Verif.Model.Cosmo
import Verif.Props.CosmoSeg
import Verif.Props.Cosmo
import Verif.Props.CosmoMix
import Verif.Model.Threads
import Verif.Props.Threads
import Verif.Model.AdvPR
import Verif.Props.AdvPR
import Verif.Props.CubicSat
import Verif.Props.AlphaDocs
import Verif.Props.AdvMake
import Verif.Model.CritPolish
import Verif.Props.CritPolish
import Verif.Props.LJTables
import Verif.Model.ParamOpt
import Verif.Spec.Sound
import Verif.Props.SoundSpeed
import Verif.Props.FitDocument
import Verif.Props.FitCost
import Verif.Model.AncBuild
import Verif.Props.AncBuild
import Verif.Model.Holder
import Verif.Props.Holder
import Verif.Spec.Lafitte
import Verif.Props.SVRTables
import Verif.Props.Neff
import Verif.Lemmas.ExpEnclosure
import Verif.Model.LJThol
import Verif.Spec.LJThol
import Verif.Props.LJThol
import Verif.Model.MutantDoc
import Verif.Model.ExtPrec
import Verif.Model.Lookup
import Verif.Props.MutantDoc
import Verif.Props.ExtPrec
import Verif.Props.Lookup
import Verif.Model.ChebDep
import Verif.Props.Polarizable
import Verif.Props.ChebDep
import Verif.Props.GERGNames
import Verif.Model.Schema
import Verif.Lemmas.Schema
import Verif.Props.Schema
import Verif.Props.SchemaKinds
import Verif.Props.SchemaCall
import Verif.Model.MixDoc
import Verif.Lemmas.MixDoc
import Verif.Props.MixDoc
import Verif.Props.MixDocBuild
import Verif.Props.MixDocFace
import Verif.Spec.Fingerprint
import Verif.Props.Tables
import Verif.Props.RealTables
import Verif.Model.JsonInt
import Verif.Spec.Decode
import Verif.Props.JsonConv
import Verif.Spec.LowDensity
import Verif.Props.LowDensity
import Verif.Props.LowDensitySAFT
import Verif.Props.LowDensityGERG
import Verif.Props.LowDensitySVR
import Verif.Props.LowDensityCPA
import Verif.Props.LowDensityMF
import Verif.Props.CosmoConv
import Verif.Props.AssocLimit
import Verif.Model.EmbedTerm
import Verif.Props.EmbedTerm
import Verif.Props.CorrSignGott
import Verif.Props.EmbedDoc
import Verif.Props.CubicCaloric
import Verif.Props.HardSphere
import Verif.Props.AlyLee
import Verif.Props.ChebMix
import Verif.Props.LowDensityECS
import Verif.Spec.CubicStable
import Verif.Props.CubicStable
import Verif.Spec.Saturation
import Verif.Lemmas.CommonTangent
import Verif.Lemmas.Saturation
import Verif.Props.Saturation
import Verif.Lemmas.SatCurve
import Verif.Props.SatCurve
import Verif.Lemmas.NewtonLocal
import Verif.Props.NewtonLocal
import Verif.Props.IterConverge
import Verif.Lemmas.NewtonVec
import Verif.Props.MixConverge
import Verif.Props.VlleConverge
import Verif.Props.HardChain
import Verif.Props.CubicBoyle
import Verif.Props.SatDensities
import Verif.Props.SatMeets
import Verif.Props.Rewrite
import Verif.Props.AssocRewrite
import Verif.Props.Splitting
import Verif.Props.CPARewrite
import Verif.Props.CosmoRewrite
import Verif.Props.ListedTwice
import Verif.Props.ListedCritical
import Verif.Props.AbsentCritical
import Verif.Props.ListedModels
import Verif.Props.MinEigen
import Verif.Model.MultiFluidParts
import Verif.Props.MultiFluidParts
