import Verif.Model.Init
import Verif.Model.RandomMatrix
import Verif.Model.Validation
import Verif.Model.LineSearch
import Verif.Model.Descent
import Verif.Model.SimplexProjection
import Mathlib.LinearAlgebra.Matrix.Trace

/-!
Model of `src/reor/gpnh_convex_coding.py`.

`T` = n_samples, `D` = n_features, `k` = n_components.  Exceptions do not carry the partially
updated object.
-/

namespace Reor

open scoped BigOperators Matrix

variable {K : Type} [Field K] [LinearOrder K]

/-! ### Initialisation -/

/-- `_check_init_weights`, src/reor/gpnh_convex_coding.py lines 27-30. -/
def gpnhCheckInitWeights (weights : Option (Arr2 K)) (m n : ℕ) : Py (Matrix (Fin m) (Fin n) K) := do
  let A ← checkArray weights
  let M ← checkArrayShape A m n
  let _ ← checkUnitRowSums M
  pure M

/-- `_check_init_dictionary`, src/reor/gpnh_convex_coding.py lines 33-35. -/
def gpnhCheckInitDictionary (dictionary : Option (Arr2 K)) (m n : ℕ) :
    Py (Matrix (Fin m) (Fin n) K) := do
  let A ← checkArray dictionary
  checkArrayShape A m n

/-- `_initialize_gpnh_convex_coding_dictionary_random`, src/reor/gpnh_convex_coding.py
lines 38-46. The mean of an empty array is NaN. -/
def gpnhInitDictionaryRandom (env : Env K) {T D : ℕ} (data : Matrix (Fin T) (Fin D) K) (k : ℕ)
    (g : env.rng.G) : Py (Matrix (Fin k) (Fin D) K × env.rng.G) :=
  if T * D = 0 then Py.raise .nonFinite
  else
    let avg := env.sqrt ((∑ t, ∑ d, |data t d|) / ((T * D : ℕ) : K) / (k : K))
    let draw := env.rng.randn k D g
    Py.ok (avg • draw.1, draw.2)

/-- `_initialize_gpnh_convex_coding_dictionary_furthest_sum`, src/reor/gpnh_convex_coding.py
lines 49-78. -/
def gpnhInitDictionaryFurthestSum (env : Env K) {T D : ℕ} (data : Matrix (Fin T) (Fin D) K) (k : ℕ)
    (kw : InitKwargs) (g : env.rng.G) : Py (Matrix (Fin k) (Fin D) K × env.rng.G) := do
  let kernel := data * dataᵀ
  let r ← furthestSumRows env kernel k kw g
  pure ((fun i => data (r.1 i)), r.2)

/-- `_initialize_gpnh_convex_coding_weights_random`, src/reor/gpnh_convex_coding.py lines 81-87. -/
def gpnhInitWeightsRandom (env : Env K) (T k : ℕ) (g : env.rng.G) :
    Py (Matrix (Fin T) (Fin k) K × env.rng.G) := rightStochasticMatrix env.rng T k g

/-- `_initialize_gpnh_convex_coding_dictionary`, src/reor/gpnh_convex_coding.py lines 90-111. -/
def gpnhInitDictionary (env : Env K) {T D : ℕ} (data : Matrix (Fin T) (Fin D) K) (k : ℕ)
    (init : Option String) (kw : InitKwargs) (g : env.rng.G) :
    Py (Matrix (Fin k) (Fin D) K × env.rng.G) :=
  let init := init.getD "random"
  if init = "random" then gpnhInitDictionaryRandom env data k g
  else if init = "furthest_sum" then gpnhInitDictionaryFurthestSum env data k kw g
  else Py.raise .valueError

/-- `_initialize_gpnh_convex_coding_weights`, src/reor/gpnh_convex_coding.py lines 114-125; it takes
no keyword arguments besides the named ones, so any extra keyword is a TypeError. -/
def gpnhInitWeights (env : Env K) (T k : ℕ) (init : Option String) (kw : InitKwargs)
    (g : env.rng.G) : Py (Matrix (Fin T) (Fin k) K × env.rng.G) :=
  if kw.nonempty then Py.raise .typeError
  else
    let init := init.getD "random"
    if init = "furthest_sum" ∨ init = "random" then gpnhInitWeightsRandom env T k g
    else Py.raise .valueError

/-- `_initialize_gpnh_convex_coding`, src/reor/gpnh_convex_coding.py lines 128-140.  The keyword
arguments go to the dictionary only. -/
def gpnhInitBoth (env : Env K) {T D : ℕ} (data : Matrix (Fin T) (Fin D) K) (k : ℕ)
    (init : Option String) (kw : InitKwargs) (g : env.rng.G) :
    Py ((Matrix (Fin k) (Fin D) K × Matrix (Fin T) (Fin k) K) × env.rng.G) := do
  let init := some (init.getD "random")
  let d ← gpnhInitDictionary env data k init kw g
  let w ← gpnhInitWeights env T k init {} d.2
  pure ((d.1, w.1), w.2)

/-! ### The solver state -/

/-- The numerical attributes of a `GPNHConvexCoding` object during a fit,
src/reor/gpnh_convex_coding.py lines 236-261. -/
structure GPNHState (T D k : ℕ) (K : Type) where
  X : Matrix (Fin T) (Fin D) K
  Gamma : Matrix (Fin T) (Fin k) K
  S : Matrix (Fin k) (Fin D) K
  GtG : Matrix (Fin k) (Fin k) K
  GtX : Matrix (Fin k) (Fin D) K
  XSt : Matrix (Fin T) (Fin k) K
  SSt : Matrix (Fin k) (Fin k) K
  GammaOld : Matrix (Fin T) (Fin k) K
  gradGamma : Matrix (Fin T) (Fin k) K
  incrGamma : Matrix (Fin T) (Fin k) K
  SOld : Matrix (Fin k) (Fin D) K
  gradS : Matrix (Fin k) (Fin D) K
  incrS : Matrix (Fin k) (Fin D) K
  alphaGamma : K
  alphaS : K
  fSMem : List K
  fGammaMem : List K

namespace GPNHState

variable {T D k : ℕ}

/-- `_initialize_workspace`, src/reor/gpnh_convex_coding.py lines 263-287 (uninitialised work arrays
are zero here; they are written before they are read). -/
def initializeWorkspace (cfg : LSConfig K) (X : Matrix (Fin T) (Fin D) K)
    (Gamma : Matrix (Fin T) (Fin k) K) (S : Matrix (Fin k) (Fin D) K) : GPNHState T D k K :=
  { X := X, Gamma := Gamma, S := S
    GtG := Gammaᵀ * Gamma
    GtX := Gammaᵀ * X
    XSt := X * Sᵀ
    SSt := S * Sᵀ
    GammaOld := Gamma, gradGamma := 0, incrGamma := 0
    SOld := S, gradS := 0, incrS := 0
    alphaGamma := 1, alphaS := 1
    fSMem := List.replicate cfg.memory 0
    fGammaMem := List.replicate cfg.memory 0 }

/-- `_evaluate_dictionary_penalty`, src/reor/gpnh_convex_coding.py lines 289-305. -/
def evaluateDictionaryPenalty (eps : K) (s : GPNHState T D k K) : K :=
  if k = 1 then 0
  else
    let pre : K := 2 / ((k : K) * (D : K) * ((k : K) - 1))
    eps * (0 + (pre * (k : K) * s.SSt.trace - pre * matSum s.SSt))

/-- `_evaluate_loss_function`, src/reor/gpnh_convex_coding.py lines 307-315.  The division by zero
for empty data is checked once, in `gpnhIterate`. -/
def evaluateLossFunction (s : GPNHState T D k K) : K :=
  let normalization : K := 1 / ((D : K) * (T : K))
  normalization * normSq (s.X - s.Gamma * s.S)

/-- `_evaluate_cost`, src/reor/gpnh_convex_coding.py lines 317-321. -/
def evaluateCost (eps : K) (s : GPNHState T D k K) : K :=
  s.evaluateLossFunction + s.evaluateDictionaryPenalty eps

/-- `_dictionary_penalty_gradient`, src/reor/gpnh_convex_coding.py lines 323-337. -/
def dictionaryPenaltyGradient (eps : K) (s : GPNHState T D k K) : GPNHState T D k K :=
  if k = 1 then { s with gradS := 0 }
  else
    let pre : K := 4 * eps / ((D : K) * (k : K) * ((k : K) - 1))
    let DM : Matrix (Fin k) (Fin k) K := fun i j => (k : K) * (if i = j then 1 else 0) - 1
    { s with gradS := DM * (pre • s.S) }

/-- `_update_dictionary_gradient`, src/reor/gpnh_convex_coding.py lines 339-348. -/
def updateDictionaryGradient (eps : K) (s : GPNHState T D k K) : GPNHState T D k K :=
  let s := s.dictionaryPenaltyGradient eps
  let normalization : K := 1 / ((D : K) * (T : K))
  let s := { s with gradS := s.gradS + (-2 * normalization) • s.GtX }
  { s with gradS := s.gradS + (2 * normalization) • (s.GtG * s.S) }

/-- Move to `S_old + step * incr_S`, refresh `SSt`, evaluate the cost:
src/reor/gpnh_convex_coding.py lines 381-384 (and 368-371 for the full step). -/
def dictionaryTrial (eps : K) (s : GPNHState T D k K) (step : K) : GPNHState T D k K × K :=
  let s := { s with S := s.SOld + step • s.incrS }
  let s := { s with SSt := s.S * s.Sᵀ }
  (s, s.evaluateCost eps)

/-- `_dictionary_line_search`, src/reor/gpnh_convex_coding.py lines 350-389. -/
def dictionaryLineSearch (cfg : LSConfig K) (eps : K) (s : GPNHState T D k K) :
    Py (GPNHState T D k K × K) := do
  let currentCost := s.evaluateCost eps
  let s := { s with SOld := s.S }
  let incrNorm := mulSum s.incrS s.gradS
  let r ← lineSearch cfg (dictionaryTrial eps) s.fSMem s currentCost incrNorm
  pure ({ r.state with fSMem := r.mem }, r.stepSize)

/-- First part of `_update_dictionary`, src/reor/gpnh_convex_coding.py lines 394-401: refresh the
products, evaluate the gradient and the search direction. -/
def prepareDictionary (eps : K) (s : GPNHState T D k K) : GPNHState T D k K :=
  let s := { s with SSt := s.S * s.Sᵀ }
  let s := { s with GtX := s.Gammaᵀ * s.X }
  let s := { s with GtG := s.Gammaᵀ * s.Gamma }
  let s := s.updateDictionaryGradient eps
  let s := { s with incrS := s.S - s.alphaS • s.gradS }
  { s with incrS := s.incrS - s.S }

/-- `_update_dictionary`, src/reor/gpnh_convex_coding.py lines 391-419. -/
def updateDictionary (cfg : LSConfig K) (eps : K) (s : GPNHState T D k K) :
    Py (GPNHState T D k K) := do
  let s := s.prepareDictionary eps
  let r ← s.dictionaryLineSearch cfg eps
  let s := r.1
  let stepSize := r.2
  let oldGrad := s.gradS
  let s := s.updateDictionaryGradient eps
  let deltaGrad := s.gradS - oldGrad
  let sksk := stepSize ^ 2 * mulSum s.incrS s.incrS
  let beta := stepSize * mulSum s.incrS deltaGrad
  pure { s with alphaS := nextSpgAlpha beta sksk cfg.alphaMin cfg.alphaMax }

/-- `_update_weights_gradient`, src/reor/gpnh_convex_coding.py lines 421-435. -/
def updateWeightsGradient (s : GPNHState T D k K) : GPNHState T D k K :=
  let s := { s with gradGamma := 0 }
  let normalization : K := 1 / ((D : K) * (T : K))
  let s := { s with gradGamma := s.gradGamma + (-2 * normalization) • s.XSt }
  { s with gradGamma := s.gradGamma + (2 * normalization) • (s.Gamma * s.SSt) }

/-- Move to `Gamma_old + step * incr_Gamma` and evaluate the cost:
src/reor/gpnh_convex_coding.py lines 467-469 (and 454-456 for the full step). -/
def weightsTrial (eps : K) (s : GPNHState T D k K) (step : K) : GPNHState T D k K × K :=
  let s := { s with Gamma := s.GammaOld + step • s.incrGamma }
  (s, s.evaluateCost eps)

/-- `_weights_line_search`, src/reor/gpnh_convex_coding.py lines 437-474. -/
def weightsLineSearch (cfg : LSConfig K) (eps : K) (s : GPNHState T D k K) :
    Py (GPNHState T D k K × K) := do
  let currentCost := s.evaluateCost eps
  let s := { s with GammaOld := s.Gamma }
  let incrNorm := mulSum s.incrGamma s.gradGamma
  let r ← lineSearch cfg (weightsTrial eps) s.fGammaMem s currentCost incrNorm
  pure ({ r.state with fGammaMem := r.mem }, r.stepSize)

/-- First part of `_update_weights`, src/reor/gpnh_convex_coding.py lines 479-486. -/
def prepareWeights (s : GPNHState T D k K) : GPNHState T D k K :=
  let s := { s with SSt := s.S * s.Sᵀ }
  let s := { s with XSt := s.X * s.Sᵀ }
  let s := s.updateWeightsGradient
  let s := { s with incrGamma := s.Gamma - s.alphaGamma • s.gradGamma }
  let s := { s with incrGamma := simplexProjectRows s.incrGamma }
  { s with incrGamma := s.incrGamma - s.Gamma }

/-- `_update_weights`, src/reor/gpnh_convex_coding.py lines 476-504. -/
def updateWeights (cfg : LSConfig K) (eps : K) (s : GPNHState T D k K) :
    Py (GPNHState T D k K) := do
  let s := s.prepareWeights
  let r ← s.weightsLineSearch cfg eps
  let s := r.1
  let stepSize := r.2
  let oldGrad := s.gradGamma
  let s := s.updateWeightsGradient
  let deltaGrad := s.gradGamma - oldGrad
  let sksk := stepSize ^ 2 * mulSum s.incrGamma s.incrGamma
  let beta := stepSize * mulSum s.incrGamma deltaGrad
  pure { s with alphaGamma := nextSpgAlpha beta sksk cfg.alphaMin cfg.alphaMax }

end GPNHState

/-- `_iterate`, src/reor/gpnh_convex_coding.py lines 506-552.  The first evaluation of the cost
divides `1.0` by `n_features * n_samples`. -/
def gpnhIterate {T D k : ℕ} (cfg : LSConfig K) (eps : K) (require : Bool) (tolerance : K)
    (maxIterations : ℕ) (updateDictionary updateWeights : Bool) (s : GPNHState T D k K) :
    Py (IterResult (GPNHState T D k K) K) :=
  if D * T = 0 then Py.raise .zeroDivisionError
  else
    iterate (fun s => (s, s.evaluateCost eps)) require tolerance maxIterations
      ((if updateDictionary then [GPNHState.updateDictionary cfg eps] else []) ++
       (if updateWeights then [GPNHState.updateWeights cfg eps] else [])) s

/-! ### The estimator -/

/-- A `GPNHConvexCoding` object, src/reor/gpnh_convex_coding.py lines 215-261.  `randomState` is the
state of the generator object held by the estimator. -/
structure GPNHObj (R : Rng K) where
  nComponents : NumArg K
  epsilonStates : K
  init : Option String
  tolerance : NumArg K
  maxIterations : NumArg K
  randomState : R.G
  ls : LSConfig K
  require : Bool
  Gamma : Option (Arr2 K) := none
  S : Option (Arr2 K) := none
  nComponents_ : Option ℕ := none
  cost_ : Option K := none
  dictionary_ : Option (Arr2 K) := none
  nIter_ : Option ℕ := none

/-- What a fit reports besides the object: cost, iteration index, whether the UserWarning was
issued, and the costs of the iterations. -/
structure FitInfo (K : Type) where
  cost : K
  nIter : ℕ
  warned : Bool
  trace : List K

/-- The starting point chosen by `_gpnh_convex_coding`, src/reor/gpnh_convex_coding.py
lines 574-594. -/
def gpnhStart (env : Env K) {T D : ℕ} (data : Matrix (Fin T) (Fin D) K) (k : ℕ)
    (init : Option String) (dictionary weights : Option (Arr2 K))
    (updateDictionary updateWeights : Bool) (kw : InitKwargs) (g : env.rng.G) :
    Py ((Matrix (Fin k) (Fin D) K × Matrix (Fin T) (Fin k) K) × env.rng.G) :=
  if init = some "custom" then do
    let w ← gpnhCheckInitWeights weights T k
    let d ← gpnhCheckInitDictionary dictionary k D
    pure ((d, w), g)
  else if updateDictionary = false ∧ updateWeights = true then do
    let d ← gpnhCheckInitDictionary dictionary k D
    let w ← gpnhInitWeights env T k init kw g
    pure ((d, w.1), w.2)
  else if updateDictionary = true ∧ updateWeights = false then do
    let w ← gpnhCheckInitWeights weights T k
    let d ← gpnhInitDictionary env data k init kw g
    pure ((d.1, w), d.2)
  else gpnhInitBoth env data k init kw g

/-- `self.n_components` after lines 561-562: `None` is replaced by the number of features. -/
def defaultComponents (nComponents : NumArg K) (n : ℕ) : NumArg K :=
  match nComponents with
  | .none => .int n
  | c => c

/-- `_gpnh_convex_coding`, src/reor/gpnh_convex_coding.py lines 554-610. -/
def gpnhConvexCoding (env : Env K) (obj : GPNHObj env.rng) (data : Arr2 K)
    (dictionary weights : Option (Arr2 K)) (updateDictionary updateWeights : Bool)
    (kw : InitKwargs) : Py (GPNHObj env.rng × FitInfo K) := do
  let obj := { obj with nComponents := defaultComponents obj.nComponents data.cols }
  let p ← checkParams obj.nComponents obj.maxIterations obj.tolerance
  let start ← gpnhStart env data.val p.1 obj.init dictionary weights updateDictionary updateWeights
    kw obj.randomState
  let s := GPNHState.initializeWorkspace obj.ls data.val start.1.2 start.1.1
  let r ← gpnhIterate obj.ls obj.epsilonStates obj.require p.2.2 p.2.1 updateDictionary
    updateWeights s
  let warned := decide (r.nIter = p.2.1 ∧ p.2.2 > 0)
  pure ({ obj with
      randomState := start.2
      Gamma := some (Arr2.of r.state.Gamma)
      S := some (Arr2.of r.state.S) },
    { cost := r.cost, nIter := r.nIter, warned := warned, trace := r.trace })

/-- `fit_transform`, src/reor/gpnh_convex_coding.py lines 612-644; `fit` (lines 646-659) is the same
without the return value.  Returns the object, the weights and the report. -/
def gpnhFitTransform (env : Env K) (obj : GPNHObj env.rng) (data : Arr2 K)
    (dictionary weights : Option (Arr2 K)) (kw : InitKwargs)
    (updateDictionary updateWeights : Bool := true) :
    Py (GPNHObj env.rng × Option (Arr2 K) × FitInfo K) := do
  let r ← gpnhConvexCoding env obj data dictionary weights updateDictionary updateWeights kw
  let obj := { r.1 with
    nComponents_ := r.1.S.map (fun S => S.rows)
    cost_ := some r.2.cost
    dictionary_ := r.1.S
    nIter_ := some r.2.nIter }
  pure (obj, obj.Gamma, r.2)

/-- `transform`, src/reor/gpnh_convex_coding.py lines 661-680. -/
def gpnhTransform (env : Env K) (obj : GPNHObj env.rng) (data : Arr2 K) :
    Py (GPNHObj env.rng × Option (Arr2 K) × FitInfo K) := do
  let r ← gpnhConvexCoding env obj data obj.S none false true {}
  pure (r.1, r.1.Gamma, r.2)

/-- `inverse_transform`, src/reor/gpnh_convex_coding.py lines 682-696: `weights.dot(self.S)`; an
unfitted model has `S = None`, on which `dot` fails (TypeError); mismatched shapes are a
ValueError. -/
def gpnhInverseTransform (env : Env K) (obj : GPNHObj env.rng) (weights : Arr2 K) : Py (Arr2 K) :=
  match obj.S with
  | none => Py.raise .typeError
  | some S =>
    if h : S.rows = weights.cols then
      Py.ok (Arr2.of (weights.val * (S.cast h rfl)))
    else Py.raise .valueError

end Reor
