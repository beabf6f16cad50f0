import Verif.Cart
import Verif.Spec.Cart
import Verif.CartLemmas
import Verif.Types
import Verif.TypesLemmas
import Verif.Tables.Psi4
import Verif.Tables.Gamess
import Verif.Tables.Recur
import Verif.Recur
import Verif.RecurLemmas
import Verif.Props.Tables
import Verif.Props.Ordering
import Verif.HRR
import Verif.Spec.HRR
import Verif.HRRLemmas
import Verif.HRROrderLemmas
import Verif.HRRExecLemmas
import Verif.GeneralHRR
import Verif.GeneralHRRLemmas
import Verif.HRRModeLemmas
import Verif.Props.HRR
import Verif.VRR
import Verif.Spec.VRR
import Verif.VRRLemmas
import Verif.VRROrderLemmas
import Verif.VRRExecLemmas
import Verif.VRRModes
import Verif.VRRExtLemmas
import Verif.VRRGenLemmas
import Verif.VRRRunLemmas
import Verif.Props.VRR
import Verif.Gauss
import Verif.GaussDecay
import Verif.Spec.ERI
import Verif.Props.RealIntegrals
import Verif.Workspace
import Verif.WorkspaceLemmas
import Verif.Props.Workspace
import Verif.Simd
import Verif.Driver
import Verif.Spec.Driver
import Verif.DriverLemmas
import Verif.DriverSumLemmas
import Verif.DriverLoopLemmas
import Verif.SimdLemmas
import Verif.Props.Driver
import Verif.Ssss
import Verif.SsssLemmas
import Verif.Props.Ssss
import Verif.HRRTopLemmas
import Verif.VRRVarLemmas
import Verif.Function
import Verif.Spec.Function
import Verif.FunctionLemmas
import Verif.Props.Function
import Verif.Permute
import Verif.PermuteLemmas
import Verif.Props.Permute
import Verif.CoulombDeriv
import Verif.Deriv
import Verif.Spec.Deriv
import Verif.DerivLemmas
import Verif.Props.Deriv
import Verif.DerivPermute
import Verif.Props.DerivPermute
import Verif.Shell
import Verif.ShellLemmas
import Verif.Spec.Shell
import Verif.Props.Shell
import Verif.Spec.ShellPairs
import Verif.Props.ShellFill
import Verif.Props.ShellScreen
import Verif.Sort
import Verif.SortLemmas
import Verif.Spec.Sort
import Verif.Props.Sort
import Verif.Props.SortFill
import Verif.Cat
import Verif.CatLemmas
import Verif.Spec.Cat
import Verif.Props.Cat
import Verif.OneEl
import Verif.Spec.OneEl
import Verif.OneElGauss
import Verif.NucGauss
import Verif.OneElInt
import Verif.OneElLemmas
import Verif.OneElLoops
import Verif.PotLemmas
import Verif.Props.OneEl
import Verif.Props.Potential
import Verif.BoysTable
import Verif.Boys
import Verif.BoysCheck
import Verif.BoysInt
import Verif.BoysGrid
import Verif.Spec.Boys
import Verif.BoysLemmas
import Verif.BoysAcc
import Verif.Props.Boys
import Verif.Spec.Norm
import Verif.Norm
import Verif.NormLemmas
import Verif.Props.Norm
import Verif.CommandLine
import Verif.Spec.CommandLine
import Verif.CommandLineLemmas
import Verif.Props.CommandLine
import Verif.CreatePy
import Verif.Spec.CreatePy
import Verif.CreatePyLemmas
import Verif.Props.CreatePy
import Verif.Spec.Exact
import Verif.ExactLemmas
import Verif.Props.Exact
import Verif.Spec.FileList
import Verif.FileListLemmas
import Verif.Props.FileList
import Verif.Tables.Init
import Verif.Dispatch
import Verif.DispatchLemmas
import Verif.Spec.Dispatch
import Verif.Props.Dispatch
import Verif.SchwarzLemmas
import Verif.SchwarzContracted
import Verif.Props.SchwarzFill
import Verif.ScreenLemmas
import Verif.Screen
import Verif.ScreenValueLemmas
import Verif.ScreenErrorLemmas
import Verif.Props.Screen
import Verif.Props.FastScreen
import Verif.Naming
import Verif.Props.Naming
import Verif.ThoLemmas
import Verif.ThoDirection
import Verif.ThoIntegral
import Verif.Valeev
import Verif.ValeevLemmas
import Verif.ValeevBoys
import Verif.Props.Valeev
import Verif.ValeevArrays
import Verif.ValeevArrayLemmas
import Verif.ValeevGrad
import Verif.Props.ValeevArrays
import Verif.ValeevNum
import Verif.Props.ValeevNum
import Verif.TestErrors
import Verif.TestErrorLemmas
import Verif.Props.TestErrors
import Verif.Fortran
import Verif.Props.Fortran
import Verif.ScreenTest
import Verif.ScreenTestLemmas
import Verif.Props.ScreenTest
import Verif.Spec.Batches
import Verif.BatchLemmas
import Verif.Props.BraBatch
import Verif.Packed
import Verif.PackedLemmas
import Verif.Props.Packed
import Verif.MolFile
import Verif.MolFileSpec
import Verif.MolFileLemmas
import Verif.MolFileEof
import Verif.MolFileWrite
import Verif.MolFileGen
import Verif.Props.MolFile
import Verif.Align
import Verif.AlignLemmas
import Verif.Props.Align
import Verif.IntArith
import Verif.IntArithLemmas
import Verif.Props.IntArith
import Verif.TestProg
import Verif.TestProgLemmas
import Verif.Props.TestProg
import Verif.FlBoys
import Verif.FlBoysLemmas
import Verif.FlBoysIeee
import Verif.Props.FlBoys
import Verif.FlApprox
import Verif.HRRRound
import Verif.Spec.HRRRound
import Verif.HRRRoundLemmas
import Verif.Props.HRRRound
import Verif.FlShells
import Verif.Spec.FlShells
import Verif.FlShellsLemmas
import Verif.Props.FlShells
import Verif.FlDeriv
import Verif.Spec.FlDeriv
import Verif.FlDerivLemmas
import Verif.FlDerivErr
import Verif.Props.FlDeriv
import Verif.Spec.FlGrad
import Verif.Props.FlGrad
import Verif.FlOneEl
import Verif.Spec.FlOneEl
import Verif.Props.FlOneEl
import Verif.FlPot
import Verif.Spec.FlPot
import Verif.Props.FlPot
import Verif.ScreenStat
import Verif.Spec.ScreenStat
import Verif.Props.ScreenStat
import Verif.FlNorm
import Verif.Spec.FlNorm
import Verif.Props.FlNorm
import Verif.FlBasis
import Verif.Spec.FlBasis
import Verif.Props.FlBasis
import Verif.TableScripts
import Verif.TableScriptsLemmas
import Verif.Props.TableScripts
import Verif.Spec.FlBasisOne
import Verif.Props.FlBasisOne
import Verif.Spec.FlBasisGrad
import Verif.FlBasisGrad
import Verif.Props.FlBasisGrad
import Verif.FlScreen
import Verif.Spec.FlScreen
import Verif.FlScreenLemmas
import Verif.Props.FlScreen
import Verif.FlFast
import Verif.Spec.FlFast
import Verif.FlFastLemmas
import Verif.Props.FlFast
import Verif.FlSsss
import Verif.Spec.FlSsss
import Verif.FlSsssLemmas
import Verif.Props.FlSsss
import Verif.Hsum
import Verif.Spec.Hsum
import Verif.HsumLemmas
import Verif.HsumLanes
import Verif.Props.Hsum
import Verif.Props.FlHsum
import Verif.SsssDelayed
import Verif.SsssDelayedLemmas
import Verif.FlSsssDelayed
import Verif.Props.SsssDelayed
import Verif.Props.SsssDelayedScreen
import Verif.Props.SsssDelayedFar
import Verif.Spec.FlBasisScreen
import Verif.Props.FlBasisScreen
import Verif.Spec.FlBasisSchwarz
import Verif.Props.FlBasisSchwarz
import Verif.Axioms
