import Verif.Model.Descent
import Verif.Model.LineSearch
import Verif.Model.Init
import Verif.Model.RandomMatrix
import Verif.Model.Validation
import Verif.Model.SimplexProjection
import Verif.Model.Spg
import Verif.Model.GPNH

/-!
Model of `src/reor/archetypal_analysis.py`.

`self.K` is `Kmat`, `self.alpha` the scale factors, `alphaC`, `alphaS`, `alphaAlpha` the SPG step
scales.  The `print` calls and timings are left out.
-/

namespace Reor

open scoped BigOperators Matrix

variable {K : Type} [Field K] [LinearOrder K]

/-! ### Initialisation -/

/-- `_check_init_weights`, src/reor/archetypal_analysis.py lines 29-32. -/
def kaaCheckInitWeights (weights : Option (Arr2 K)) (m n : ℕ) : Py (Matrix (Fin m) (Fin n) K) := do
  let a ← checkArray weights
  let w ← checkArrayShape a m n
  let _ ← checkUnitRowSums w
  pure w

/-- `_check_init_dictionary`, src/reor/archetypal_analysis.py lines 35-38. -/
def kaaCheckInitDictionary (dictionary : Option (Arr2 K)) (m n : ℕ) :
    Py (Matrix (Fin m) (Fin n) K) := do
  let a ← checkArray dictionary
  let d ← checkArrayShape a m n
  let _ ← checkUnitRowSums d
  pure d

/-- `_initialize_kernel_aa_dictionary_random`, src/reor/archetypal_analysis.py lines 41-48. -/
def kaaInitDictionaryRandom (env : Env K) (n k : ℕ) (g : env.rng.G) :
    Py (Matrix (Fin k) (Fin n) K × env.rng.G) := rightStochasticMatrix env.rng k n g

/-- `_initialize_kernel_aa_weights_random`, src/reor/archetypal_analysis.py lines 51-58. -/
def kaaInitWeightsRandom (env : Env K) (n k : ℕ) (g : env.rng.G) :
    Py (Matrix (Fin n) (Fin k) K × env.rng.G) := rightStochasticMatrix env.rng n k g

/-- `_initialize_kernel_aa_dictionary_furthest_sum`, src/reor/archetypal_analysis.py lines 61-87. -/
def kaaInitDictionaryFurthestSum (env : Env K) {n : ℕ} (kernel : Matrix (Fin n) (Fin n) K) (k : ℕ)
    (kw : InitKwargs) (g : env.rng.G) : Py (Matrix (Fin k) (Fin n) K × env.rng.G) := do
  let r ← furthestSumRows env kernel k kw g
  pure ((fun i j => if j = r.1 i then 1 else 0), r.2)

/-- `_initialize_kernel_aa_dictionary`, src/reor/archetypal_analysis.py lines 90-111. -/
def kaaInitDictionary (env : Env K) {n : ℕ} (kernel : Matrix (Fin n) (Fin n) K) (k : ℕ)
    (init : Option String) (kw : InitKwargs) (g : env.rng.G) :
    Py (Matrix (Fin k) (Fin n) K × env.rng.G) :=
  let init := init.getD "furthest_sum"
  if init = "furthest_sum" then kaaInitDictionaryFurthestSum env kernel k kw g
  else if init = "random" then kaaInitDictionaryRandom env n k g
  else Py.raise .valueError

/-- `_initialize_kernel_aa_weights`, src/reor/archetypal_analysis.py lines 114-125; it takes no
further keyword arguments, so any extra keyword is a TypeError. -/
def kaaInitWeights (env : Env K) (n k : ℕ) (init : Option String) (kw : InitKwargs)
    (g : env.rng.G) : Py (Matrix (Fin n) (Fin k) K × env.rng.G) :=
  if kw.nonempty then Py.raise .typeError
  else
    let init := init.getD "furthest_sum"
    if init = "furthest_sum" ∨ init = "random" then kaaInitWeightsRandom env n k g
    else Py.raise .valueError

/-- `_initialize_kernel_aa`, src/reor/archetypal_analysis.py lines 128-141.  The keyword arguments go
to both initialisers. -/
def kaaInitBoth (env : Env K) {n : ℕ} (kernel : Matrix (Fin n) (Fin n) K) (k : ℕ)
    (init : Option String) (kw : InitKwargs) (g : env.rng.G) :
    Py ((Matrix (Fin k) (Fin n) K × Matrix (Fin n) (Fin k) K) × env.rng.G) := do
  let init := some (init.getD "furthest_sum")
  let d ← kaaInitDictionary env kernel k init kw g
  let w ← kaaInitWeights env n k init kw d.2
  pure ((d.1, w.1), w.2)

/-! ### The solver state -/

/-- The numerical attributes of a `KernelAA` object during a fit, src/reor/archetypal_analysis.py
lines 237-270.  (`incr_alpha` starts as a vector but is a `k x k` matrix once it has been assigned,
line 601; `alpha_old` is never read.) -/
structure KAAState (n k : ℕ) (K : Type) where
  Kmat : Matrix (Fin n) (Fin n) K
  S : Matrix (Fin n) (Fin k) K
  C : Matrix (Fin k) (Fin n) K
  alpha : Fin k → K
  traceK : K
  CK : Matrix (Fin k) (Fin n) K
  CKCt : Matrix (Fin k) (Fin k) K
  CKS : Matrix (Fin k) (Fin k) K
  StS : Matrix (Fin k) (Fin k) K
  COld : Matrix (Fin k) (Fin n) K
  gradC : Matrix (Fin k) (Fin n) K
  incrC : Matrix (Fin k) (Fin n) K
  gradAlpha : Fin k → K
  incrAlpha : Matrix (Fin k) (Fin k) K
  SOld : Matrix (Fin n) (Fin k) K
  gradS : Matrix (Fin n) (Fin k) K
  incrS : Matrix (Fin n) (Fin k) K
  alphaC : K
  alphaS : K
  alphaAlpha : K
  fSMem : List K
  fCMem : List K
  fAlphaMem : List K

namespace KAAState

variable {n k : ℕ}

/-- `_initialize_workspace`, src/reor/archetypal_analysis.py lines 289-323. -/
def initializeWorkspace (cfg : LSConfig K) (Kmat : Matrix (Fin n) (Fin n) K)
    (S : Matrix (Fin n) (Fin k) K) (C : Matrix (Fin k) (Fin n) K) : KAAState n k K :=
  { Kmat := Kmat, S := S, C := C
    alpha := fun _ => 1
    traceK := Kmat.trace
    CK := C * Kmat
    CKCt := C * Kmat * Cᵀ
    CKS := C * Kmat * S
    StS := Sᵀ * S
    COld := C, gradC := 0, incrC := 0
    gradAlpha := 0, incrAlpha := 0
    SOld := S, gradS := 0, incrS := 0
    alphaC := 1, alphaS := 1, alphaAlpha := 1
    fSMem := List.replicate cfg.memory 0
    fCMem := List.replicate cfg.memory 0
    fAlphaMem := List.replicate cfg.memory 0 }

/-- `np.diag(self.alpha)`. -/
def diagAlpha (s : KAAState n k K) : Matrix (Fin k) (Fin k) K := Matrix.diagonal s.alpha

/-- Refresh `CK` and `CKCt`, with the scale factors when `delta > 0`,
src/reor/archetypal_analysis.py lines 386-394 (and 276-284, 451-459, 474-480, 561-568). -/
def refreshCK (delta : K) (s : KAAState n k K) : KAAState n k K :=
  let s := { s with CK := s.C * s.Kmat }
  let s := if delta > 0 then { s with CK := s.diagAlpha * s.CK } else s
  let s := { s with CKCt := s.CK * s.Cᵀ }
  if delta > 0 then { s with CKCt := s.CKCt * s.diagAlpha } else s

/-- The cost from the cached products, src/reor/archetypal_analysis.py lines 340-341 (and 358-359,
376-377, 433-434, 461-462, 482-483). -/
def cachedCost (s : KAAState n k K) : K :=
  s.traceK - 2 * (s.S * s.CK).trace + (s.StS * s.CKCt).trace

/-- `_evaluate_cost`, src/reor/archetypal_analysis.py lines 272-287; it refreshes the caches. -/
def evaluateCost (delta : K) (s : KAAState n k K) : KAAState n k K × K :=
  let s := { s with StS := s.Sᵀ * s.S }
  let s := s.refreshCK delta
  (s, (s.StS * s.CKCt).trace - 2 * (s.S * s.CK).trace + s.Kmat.trace)

/-- `_update_weights_gradient`, src/reor/archetypal_analysis.py lines 325-334. -/
def updateWeightsGradient (delta : K) (s : KAAState n k K) : KAAState n k K :=
  let s := { s with gradS := s.Kmatᵀ * ((-2 : K) • s.Cᵀ) }
  let s := if delta > 0 then { s with gradS := s.gradS * s.diagAlpha } else s
  { s with gradS := s.gradS + s.S * ((2 : K) • s.CKCt) }

/-- Move to `S_old + step * incr_S`, refresh `StS`, evaluate the cost:
src/reor/archetypal_analysis.py lines 372-377 (and 354-359 for the full step). -/
def weightsTrial (s : KAAState n k K) (step : K) : KAAState n k K × K :=
  let s := { s with S := s.SOld + step • s.incrS }
  let s := { s with StS := s.Sᵀ * s.S }
  (s, s.cachedCost)

/-- `_weights_line_search`, src/reor/archetypal_analysis.py lines 337-381. -/
def weightsLineSearch (cfg : LSConfig K) (s : KAAState n k K) : Py (KAAState n k K × K) := do
  let currentCost := s.cachedCost
  let s := { s with SOld := s.S }
  let incrNorm := mulSum s.incrS s.gradS
  let r ← lineSearch cfg weightsTrial s.fSMem s currentCost incrNorm
  pure ({ r.state with fSMem := r.mem }, r.stepSize)

/-- First part of `_update_weights`, src/reor/archetypal_analysis.py lines 386-400. -/
def prepareWeights (delta : K) (s : KAAState n k K) : KAAState n k K :=
  let s := s.refreshCK delta
  let s := s.updateWeightsGradient delta
  let s := { s with incrS := s.S - s.alphaS • s.gradS }
  let s := { s with incrS := simplexProjectRows s.incrS }
  { s with incrS := s.incrS - s.S }

/-- `_update_weights`, src/reor/archetypal_analysis.py lines 383-418. -/
def updateWeights (cfg : LSConfig K) (delta : K) (s : KAAState n k K) : Py (KAAState n k K) := do
  let s := s.prepareWeights delta
  let r ← s.weightsLineSearch cfg
  let s := r.1
  let stepSize := r.2
  let oldGrad := s.gradS
  let s := s.updateWeightsGradient delta
  let deltaGrad := s.gradS - oldGrad
  let sksk := stepSize ^ 2 * mulSum s.incrS s.incrS
  let beta := stepSize * mulSum s.incrS deltaGrad
  pure { s with alphaS := nextSpgAlpha beta sksk cfg.alphaMin cfg.alphaMax }

/-- `_update_dictionary_gradient`, src/reor/archetypal_analysis.py lines 420-428. -/
def updateDictionaryGradient (delta : K) (s : KAAState n k K) : KAAState n k K :=
  let s := { s with gradC := s.Sᵀ * ((-2 : K) • s.Kmatᵀ) }
  let s := { s with gradC := s.gradC + (2 : K) • (s.StS * s.CK) }
  if delta > 0 then { s with gradC := s.diagAlpha * s.gradC } else s

/-- Move to `C_old + step * incr_C`, refresh `CK` and `CKCt`, evaluate the cost:
src/reor/archetypal_analysis.py lines 472-483 (and 449-462 for the full step). -/
def dictionaryTrial (delta : K) (s : KAAState n k K) (step : K) : KAAState n k K × K :=
  let s := { s with C := s.COld + step • s.incrC }
  let s := s.refreshCK delta
  (s, s.cachedCost)

/-- `_dictionary_line_search`, src/reor/archetypal_analysis.py lines 430-488. -/
def dictionaryLineSearch (cfg : LSConfig K) (delta : K) (s : KAAState n k K) :
    Py (KAAState n k K × K) := do
  let currentCost := s.cachedCost
  let s := { s with COld := s.C }
  let incrNorm := mulSum s.incrC s.gradC
  let r ← lineSearch cfg (dictionaryTrial delta) s.fCMem s currentCost incrNorm
  pure ({ r.state with fCMem := r.mem }, r.stepSize)

/-- `_update_scale_factors_gradient`, src/reor/archetypal_analysis.py lines 490-500. -/
def updateScaleFactorsGradient (s : KAAState n k K) : KAAState n k K :=
  let tmp := (2 : K) • (s.diagAlpha * s.CKCtᵀ)
  let tmp := s.StS * tmp
  let tmp := tmp + (-2 : K) • s.CKSᵀ
  { s with gradAlpha := fun i => tmp i i }

/-- The cost as a function of the matrix of scale factors, src/reor/archetypal_analysis.py
lines 508-512 (and 530-534, 546-550). -/
def scaleCost (s : KAAState n k K) (d : Matrix (Fin k) (Fin k) K) : K :=
  let tmp := s.CKCt * d
  let tmp := d * tmp
  s.traceK - 2 * (s.CKS * d).trace + (s.StS * tmp).trace

/-- `_scale_factors_line_search`, src/reor/archetypal_analysis.py lines 502-554.  The trial points are
local matrices: `self.alpha` is not assigned.  `incr_alpha` is `k x k` and `grad_alpha` a vector, so
their product is broadcast along the rows. -/
def scaleFactorsLineSearch (cfg : LSConfig K) (s : KAAState n k K) :
    Py (KAAState n k K × K) := do
  let d := s.diagAlpha
  let currentCost := s.scaleCost d
  let incrNorm : K := ∑ i, ∑ j, s.incrAlpha i j * s.gradAlpha j
  let trial : Matrix (Fin k) (Fin k) K → K → Matrix (Fin k) (Fin k) K × K := fun _ step =>
    (d + step • s.incrAlpha, s.scaleCost (d + step • s.incrAlpha))
  let r ← lineSearch cfg trial s.fAlphaMem d currentCost incrNorm
  pure ({ s with fAlphaMem := r.mem }, r.stepSize)

/-- First part of what `_update_dictionary` does for `delta > 0`, src/reor/archetypal_analysis.py
lines 592-605. -/
def prepareScaleFactors (delta : K) (s : KAAState n k K) : KAAState n k K :=
  let d := s.diagAlpha
  let s := { s with CK := s.C * s.Kmat }
  let s := { s with CKS := s.CK * s.S }
  let s := { s with CKCt := s.CK * s.Cᵀ }
  let s := s.updateScaleFactorsGradient
  let s := { s with incrAlpha := fun i j => d i j - s.alphaAlpha * s.gradAlpha j }
  let s := { s with incrAlpha := fun i j => min (s.incrAlpha i j) (1 - delta) }
  let s := { s with incrAlpha := fun i j => max (s.incrAlpha i j) (1 + delta) }
  { s with incrAlpha := s.incrAlpha - d }

/-- The part of `_update_dictionary` executed for `delta > 0`, src/reor/archetypal_analysis.py
lines 592-621. -/
def updateScaleFactors (cfg : LSConfig K) (delta : K) (s : KAAState n k K) :
    Py (KAAState n k K) := do
  let s := s.prepareScaleFactors delta
  let r ← s.scaleFactorsLineSearch cfg
  let s := r.1
  let stepSize := r.2
  let oldGrad := s.gradAlpha
  let s := s.updateScaleFactorsGradient
  let deltaGrad : Fin k → K := fun j => s.gradAlpha j - oldGrad j
  let sksk := stepSize ^ 2 * mulSum s.incrAlpha s.incrAlpha
  let beta := stepSize * ∑ i, ∑ j, s.incrAlpha i j * deltaGrad j
  pure { s with alphaAlpha := nextSpgAlpha beta sksk cfg.alphaMin cfg.alphaMax }

/-- First part of `_update_dictionary`, src/reor/archetypal_analysis.py lines 559-574. -/
def prepareDictionary (delta : K) (s : KAAState n k K) : KAAState n k K :=
  let s := { s with StS := s.Sᵀ * s.S }
  let s := s.refreshCK delta
  let s := s.updateDictionaryGradient delta
  let s := { s with incrC := s.C - s.alphaC • s.gradC }
  let s := { s with incrC := simplexProjectRows s.incrC }
  { s with incrC := s.incrC - s.C }

/-- `_update_dictionary` up to the scale factors, src/reor/archetypal_analysis.py lines 559-590. -/
def updateDictionaryCore (cfg : LSConfig K) (delta : K) (s : KAAState n k K) :
    Py (KAAState n k K) := do
  let s := s.prepareDictionary delta
  let r ← s.dictionaryLineSearch cfg delta
  let s := r.1
  let stepSize := r.2
  let oldGrad := s.gradC
  let s := s.updateDictionaryGradient delta
  let deltaGrad := s.gradC - oldGrad
  let sksk := stepSize ^ 2 * mulSum s.incrC s.incrC
  let beta := stepSize * mulSum s.incrC deltaGrad
  pure { s with alphaC := nextSpgAlpha beta sksk cfg.alphaMin cfg.alphaMax }

/-- `_update_dictionary`, src/reor/archetypal_analysis.py lines 556-623. -/
def updateDictionary (cfg : LSConfig K) (delta : K) (s : KAAState n k K) :
    Py (KAAState n k K) := do
  let s ← s.updateDictionaryCore cfg delta
  if delta > 0 then s.updateScaleFactors cfg delta else pure s

end KAAState

/-- `_iterate`, src/reor/archetypal_analysis.py lines 625-671. -/
def kaaIterate {n k : ℕ} (cfg : LSConfig K) (delta : K) (require : Bool) (tolerance : K)
    (maxIterations : ℕ) (updateDictionary updateWeights : Bool) (s : KAAState n k K) :
    Py (IterResult (KAAState n k K) K) :=
  iterate (KAAState.evaluateCost delta) require tolerance maxIterations
    ((if updateDictionary then [KAAState.updateDictionary cfg delta] else []) ++
     (if updateWeights then [KAAState.updateWeights cfg delta] else [])) s

/-! ### The estimator -/

/-- The `random_state` argument as `KernelAA` keeps it: an integer seed, or a generator object (also
standing for `None`, the global generator), of which the current state is recorded. -/
inductive RandomArg (R : Rng K) where
  | seed (s : ℕ)
  | gen (g : R.G)

/-- `check_random_state(random_state)`: a new generator for a seed. -/
def RandomArg.start {R : Rng K} : RandomArg R → R.G
  | .seed s => R.ofSeed s
  | .gen g => g

/-- What the attribute is after draws that left the generator in state `g`. -/
def RandomArg.after {R : Rng K} : RandomArg R → R.G → RandomArg R
  | .seed s, _ => .seed s
  | .gen _, g => .gen g

/-- A `KernelAA` object, src/reor/archetypal_analysis.py lines 218-270 and 760-765. -/
structure KAAObj (R : Rng K) where
  nComponents : NumArg K
  delta : K
  init : Option String
  tolerance : NumArg K
  maxIterations : NumArg K
  randomState : RandomArg R
  ls : LSConfig K
  require : Bool
  Kmat : Option (Arr2 K) := none
  S : Option (Arr2 K) := none
  C : Option (Arr2 K) := none
  nComponents_ : Option ℕ := none
  cost_ : Option K := none
  dictionary_ : Option (Arr2 K) := none
  nIter_ : Option ℕ := none

/-- The constructor, src/reor/archetypal_analysis.py lines 218-270: `np.ones(n_components)` rejects
negative integers (ValueError) and other values that are not integers (TypeError); `None` gives a
zero-dimensional array, which is replaced in `_initialize_workspace`. -/
def kaaNew {R : Rng K} (obj : KAAObj R) : Py (KAAObj R) :=
  match obj.nComponents with
  | .none => Py.ok obj
  | .int z => if z < 0 then Py.raise .valueError else Py.ok obj
  | _ => Py.raise .typeError

/-- The starting point chosen by `_kernel_aa`, src/reor/archetypal_analysis.py lines 699-720. -/
def kaaStart (env : Env K) {n : ℕ} (kernel : Matrix (Fin n) (Fin n) K) (k : ℕ)
    (init : Option String) (dictionary weights : Option (Arr2 K))
    (updateDictionary updateWeights : Bool) (kw : InitKwargs) (g : env.rng.G) :
    Py ((Matrix (Fin k) (Fin n) K × Matrix (Fin n) (Fin k) K) × env.rng.G) :=
  if init = some "custom" then do
    let w ← kaaCheckInitWeights weights n k
    let d ← kaaCheckInitDictionary dictionary k n
    pure ((d, w), g)
  else if updateDictionary = false ∧ updateWeights = true then do
    let d ← kaaCheckInitDictionary dictionary k n
    let w ← kaaInitWeights env n k init kw g
    pure ((d, w.1), w.2)
  else if updateDictionary = true ∧ updateWeights = false then do
    let w ← kaaCheckInitWeights weights n k
    let d ← kaaInitDictionary env kernel k init kw g
    pure ((d.1, w), d.2)
  else kaaInitBoth env kernel k init kw g

/-- `_kernel_aa` after the shape of the kernel has been checked, src/reor/archetypal_analysis.py
lines 684-733. -/
def kernelAASquare (env : Env K) (obj : KAAObj env.rng) {n : ℕ} (kernel : Matrix (Fin n) (Fin n) K)
    (dictionary weights : Option (Arr2 K)) (updateDictionary updateWeights : Bool)
    (kw : InitKwargs) : Py (KAAObj env.rng × FitInfo K) := do
  let obj := { obj with nComponents := defaultComponents obj.nComponents n }
  let p ← checkParams obj.nComponents obj.maxIterations obj.tolerance
  let start ← kaaStart env kernel p.1 obj.init dictionary weights updateDictionary updateWeights
    kw obj.randomState.start
  let s := KAAState.initializeWorkspace obj.ls kernel start.1.2 start.1.1
  let r ← kaaIterate obj.ls obj.delta obj.require p.2.2 p.2.1 updateDictionary updateWeights s
  let warned := decide (r.nIter = p.2.1 ∧ p.2.2 > 0)
  pure ({ obj with
      randomState := obj.randomState.after start.2
      Kmat := some (Arr2.of kernel)
      S := some (Arr2.of r.state.S)
      C := some (Arr2.of r.state.C) },
    { cost := r.cost, nIter := r.nIter, warned := warned, trace := r.trace })

/-- `_kernel_aa`, src/reor/archetypal_analysis.py lines 673-733. -/
def kernelAA (env : Env K) (obj : KAAObj env.rng) (kernel : Arr2 K)
    (dictionary weights : Option (Arr2 K)) (updateDictionary updateWeights : Bool)
    (kw : InitKwargs) : Py (KAAObj env.rng × FitInfo K) :=
  if h : kernel.cols = kernel.rows then
    kernelAASquare env obj (kernel.cast rfl h) dictionary weights updateDictionary updateWeights kw
  else Py.raise .valueError

/-- The attributes set by `fit_transform` and the returned weights, src/reor/archetypal_analysis.py
lines 757-767. -/
def kaaFinish {R : Rng K} (r : KAAObj R × FitInfo K) : KAAObj R × Option (Arr2 K) × FitInfo K :=
  let obj := { r.1 with
    nComponents_ := r.1.C.map (fun C => C.rows)
    cost_ := some r.2.cost
    dictionary_ := r.1.C
    nIter_ := some r.2.nIter }
  (obj, obj.S, r.2)

/-- `fit_transform`, src/reor/archetypal_analysis.py lines 735-767; `fit` (lines 769-782) is the same
without the return value. -/
def kaaFitTransform (env : Env K) (obj : KAAObj env.rng) (kernel : Arr2 K)
    (dictionary weights : Option (Arr2 K)) (kw : InitKwargs)
    (updateDictionary updateWeights : Bool := true) :
    Py (KAAObj env.rng × Option (Arr2 K) × FitInfo K) := do
  let r ← kernelAA env obj kernel dictionary weights updateDictionary updateWeights kw
  pure (kaaFinish r)

/-- `transform`, src/reor/archetypal_analysis.py lines 784-803. -/
def kaaTransform (env : Env K) (obj : KAAObj env.rng) (kernel : Arr2 K) :
    Py (KAAObj env.rng × Option (Arr2 K) × FitInfo K) := do
  let r ← kernelAA env obj kernel obj.C none false true {}
  pure (r.1, r.1.S, r.2)

/-- `inverse_transform`, src/reor/archetypal_analysis.py lines 805-819: `weights.dot(self.C)`. -/
def kaaInverseTransform (env : Env K) (obj : KAAObj env.rng) (weights : Arr2 K) : Py (Arr2 K) :=
  match obj.C with
  | none => Py.raise .typeError
  | some C =>
    if h : C.rows = weights.cols then
      Py.ok (Arr2.of (weights.val * (C.cast h rfl)))
    else Py.raise .valueError

/-- The kernel used by `ArchetypalAnalysis`, src/reor/archetypal_analysis.py lines 908-911, 935-938 and
965-968: `data.dot(data.T)` or the caller's function. -/
def aaKernel (kernelFunc : Option (Arr2 K → Py (Arr2 K))) (data : Arr2 K) : Py (Arr2 K) :=
  match kernelFunc with
  | none => Py.ok (Arr2.of (data.val * data.valᵀ))
  | some f => f data

/-- `ArchetypalAnalysis.fit_transform`, src/reor/archetypal_analysis.py lines 913-949. -/
def aaFitTransform (env : Env K) (obj : KAAObj env.rng)
    (kernelFunc : Option (Arr2 K → Py (Arr2 K))) (data : Arr2 K)
    (dictionary weights : Option (Arr2 K)) (kw : InitKwargs)
    (updateDictionary updateWeights : Bool := true) :
    Py (KAAObj env.rng × Option (Arr2 K) × FitInfo K) := do
  let kernel ← aaKernel kernelFunc data
  let r ← kernelAA env obj kernel dictionary weights updateDictionary updateWeights kw
  pure (kaaFinish r)

/-- `ArchetypalAnalysis.transform`, src/reor/archetypal_analysis.py lines 951-973. -/
def aaTransform (env : Env K) (obj : KAAObj env.rng)
    (kernelFunc : Option (Arr2 K → Py (Arr2 K))) (data : Arr2 K) :
    Py (KAAObj env.rng × Option (Arr2 K) × FitInfo K) := do
  let kernel ← aaKernel kernelFunc data
  let r ← kernelAA env obj kernel obj.C none false true {}
  pure (r.1, r.1.S, r.2)

end Reor
