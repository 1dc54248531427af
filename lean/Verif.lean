import Verif.Props.Simplex
import Verif.Props.Spg
import Verif.Props.FurthestSum
import Verif.Props.LineSearch
import Verif.Proofs.GPNHFit
import Verif.Proofs.Deriv
import Verif.Props.Init
import Verif.Proofs.GPNHFixed
import Verif.Props.GPNH
import Verif.Model.KernelAA
import Verif.Proofs.KernelAAFit
import Verif.Props.KernelAA
import Verif.Props.GPNHLimits
import Verif.Props.KernelAALimits
import Verif.Props.MTDLimits
import Verif.Props.GPNHCROM
import Verif.Props.CROM
import Verif.Props.FEMBV
import Verif.Model.VARX
import Verif.Proofs.VARX
import Verif.Proofs.VARXFit
import Verif.Proofs.VARXRun
import Verif.Proofs.VARXInit
import Verif.Proofs.FEMVARX
import Verif.Proofs.FEMFrozen
import Verif.Props.VARX
import Verif.Props.FEMVARX
import Verif.Model.PWVARX
import Verif.Proofs.PWVARX
import Verif.Props.PWVARX
import Verif.Model.Heap
import Verif.Model.GPNHHeap
import Verif.Model.KAAHeap
import Verif.Proofs.Heap
import Verif.Proofs.GPNHHeap
import Verif.Proofs.KAAHeap
import Verif.Props.Heap
import Verif.Model.MTDHeap
import Verif.Proofs.MTDHeapAttr
import Verif.Proofs.MTDHeap
import Verif.Proofs.MTDHeapFit
import Verif.Props.HeapMTD
import Verif.Model.FEMHeap
import Verif.Proofs.FEMHeap
import Verif.Props.HeapFEM
import Verif.Proofs.Stopping
import Verif.Props.Stopping
import Verif.Proofs.FEMBounds
import Verif.Props.FEMBounds
import Verif.Proofs.KernelAASym
import Verif.Props.KernelAASym
import Verif.Proofs.GPNHSym
import Verif.Props.GPNHSym
import Verif.Proofs.Stationary
import Verif.Props.Stationary
import Verif.Proofs.Converge
import Verif.Proofs.ConvergeKAA
import Verif.Props.Converge
import Verif.Proofs.ConvergeGPNH
import Verif.Props.ConvergeGPNH
import Verif.Model.DTypes
import Verif.Proofs.DTypes
import Verif.Props.DTypes
import Verif.Model.DTypesFEM
import Verif.Proofs.DTypesFEM
import Verif.Props.DTypesFEM
import Verif.Proofs.FEMSym
import Verif.Props.FEMSym
import Verif.Proofs.MTDSym
import Verif.Props.MTDSym
import Verif.Proofs.MTDStationary
import Verif.Props.MTDStationary
import Verif.Proofs.ConvergeMTD
import Verif.Proofs.ConvergeMTDStep
import Verif.Proofs.ConvergeMTDFit
import Verif.Props.ConvergeMTD
import Verif.Props.ConvergeDefaults
import Verif.Proofs.Draws
import Verif.Props.Draws
import Verif.Props.CROMDistance
import Verif.Model.Failure
import Verif.Proofs.Failure
import Verif.Props.Failure
import Verif.Props.FailureLimits
import Verif.Props.FailureDraws
import Verif.Model.New
import Verif.Props.New
import Verif.Proofs.Floor
import Verif.Props.Defaults
import Verif.Props.DefaultsLimits
import Verif.Proofs.FloorMTD
import Verif.Props.DefaultsMTD
import Verif.Props.Inverse
import Verif.Model.Examples
import Verif.Proofs.Examples
import Verif.Props.ExamplesFit
import Verif.Props.ExamplesGaussian
import Verif.Props.ExamplesSwitching
import Verif.Props.ExamplesPeriodic
import Verif.Props.ExamplesSiso
import Verif.Proofs.VARXSym
import Verif.Props.VARXSym
import Verif.Props.VARXShift
import Verif.Proofs.Spectral
import Verif.Props.Spectral
import Verif.Proofs.VARXMean
import Verif.Props.VARXMean
import Verif.Proofs.PWLink
import Verif.Props.PWLink
import Verif.Proofs.PWSym
import Verif.Props.PWSym
import Verif.Proofs.CROMLikelihood
import Verif.Props.CROMLikelihood
import Verif.Props.Regularisation
import Verif.Props.PWLocal
import Verif.Props.CROMSym
import Verif.Props.CROMStationary
import Verif.Model.PWFailure
import Verif.Props.PWFailure
import Verif.Props.Uniqueness
import Verif.Props.FurthestSumInv
import Verif.Model.VARXFailure
import Verif.Proofs.VARXFailure
import Verif.Props.VARXFailure
import Verif.Props.KAAScale
import Verif.Proofs.Forget
import Verif.Props.Forget
import Verif.Proofs.VARXNormal
import Verif.Props.VARXNormal
import Verif.Props.PWNormal
import Verif.Props.CROMEstimate
import Verif.Props.Slices
import Verif.Props.GPNHCROMSym
import Verif.Props.NonFinite
import Verif.Props.CROMFlt
import Verif.Props.MTDFlt
