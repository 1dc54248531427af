import Verif.Model.GPNH
import Verif.Model.Heap

/-!
`src/reor/gpnh_convex_coding.py` with arrays in memory: the same functions as in `Verif.Model.GPNH`,
statement by statement, keeping apart new arrays (`assign`), in-place changes (`augment`) and names
(`bindTo`).  Scalars are values, as in `Verif.Model.GPNH`.  The types of the array entries are not
modelled.
-/

namespace Reor

open scoped BigOperators Matrix

variable {K : Type} [Field K] [LinearOrder K]

/-- The array attributes of a `GPNHConvexCoding` object, src/reor/gpnh_convex_coding.py
lines 236-253. -/
inductive GPNHAttr where
  | X | Gamma | S | GtG | GtX | XSt | SSt
  | GammaOld | gradGamma | deltaGradGamma | incrGamma
  | SOld | gradS | deltaGradS | incrS
  deriving DecidableEq

/-- Their shapes, for data of shape `T × D` and `k` components. -/
def gpnhShape (T D k : ℕ) : GPNHAttr → ℕ × ℕ
  | .X => (T, D)
  | .Gamma | .XSt | .GammaOld | .gradGamma | .deltaGradGamma | .incrGamma => (T, k)
  | .S | .GtX | .SOld | .gradS | .deltaGradS | .incrS => (k, D)
  | .GtG | .SSt => (k, k)

/-- The scalar attributes, src/reor/gpnh_convex_coding.py lines 255-260. -/
structure GPNHScalars (K : Type) where
  alphaGamma : K
  alphaS : K
  fSMem : List K
  fGammaMem : List K

/-- A `GPNHConvexCoding` object during a fit. -/
abbrev GPNHMem (K : Type) := HState GPNHAttr (GPNHScalars K) K

namespace GPNHMem

/-- The values of the attributes used by `Verif.Model.GPNH`, read from memory. -/
def rd (T D k : ℕ) (s : GPNHMem K) : GPNHState T D k K :=
  { X := s.val (gpnhShape T D k) .X
    Gamma := s.val (gpnhShape T D k) .Gamma
    S := s.val (gpnhShape T D k) .S
    GtG := s.val (gpnhShape T D k) .GtG
    GtX := s.val (gpnhShape T D k) .GtX
    XSt := s.val (gpnhShape T D k) .XSt
    SSt := s.val (gpnhShape T D k) .SSt
    GammaOld := s.val (gpnhShape T D k) .GammaOld
    gradGamma := s.val (gpnhShape T D k) .gradGamma
    incrGamma := s.val (gpnhShape T D k) .incrGamma
    SOld := s.val (gpnhShape T D k) .SOld
    gradS := s.val (gpnhShape T D k) .gradS
    incrS := s.val (gpnhShape T D k) .incrS
    alphaGamma := s.rest.alphaGamma
    alphaS := s.rest.alphaS
    fSMem := s.rest.fSMem
    fGammaMem := s.rest.fGammaMem }

/-- `self.delta_grad_Gamma` and `self.delta_grad_S`. -/
def deltaGradGamma (T D k : ℕ) (s : GPNHMem K) : Matrix (Fin T) (Fin k) K :=
  s.val (gpnhShape T D k) .deltaGradGamma

@[inherit_doc deltaGradGamma]
def deltaGradS (T D k : ℕ) (s : GPNHMem K) : Matrix (Fin k) (Fin D) K :=
  s.val (gpnhShape T D k) .deltaGradS

variable (T D k : ℕ)

/-- Lines 596-598 of `_gpnh_convex_coding` and `_initialize_workspace`,
src/reor/gpnh_convex_coding.py lines 263-287.  `data`, `weights`, `dictionary` are addresses; the
attributes not assigned yet are taken to name the data. -/
def initializeWorkspace (cfg : LSConfig K) (h : Heap K) (data weights dictionary : ℕ) : GPNHMem K :=
  let s : GPNHMem K :=
    { addr := fun _ => data
      rest :=
        { alphaGamma := 1, alphaS := 1
          fSMem := List.replicate cfg.memory 0
          fGammaMem := List.replicate cfg.memory 0 }
      heap := h }
  let s := s.assign .X ((s.heap.cell data).at T D)
  let s := s.assign .Gamma ((s.heap.cell weights).at T k)
  let s := s.assign .S ((s.heap.cell dictionary).at k D)
  let s := s.assign .GtG ((rd T D k s).Gammaᵀ * (rd T D k s).Gamma)
  let s := s.assign .GtX ((rd T D k s).Gammaᵀ * (rd T D k s).X)
  let s := s.assign .XSt ((rd T D k s).X * (rd T D k s).Sᵀ)
  let s := s.assign .SSt ((rd T D k s).S * (rd T D k s).Sᵀ)
  let s := s.assign .GammaOld (rd T D k s).Gamma
  let s := s.assign .gradGamma (0 : Matrix (Fin T) (Fin k) K)
  let s := s.assign .deltaGradGamma (0 : Matrix (Fin T) (Fin k) K)
  let s := s.assign .incrGamma (0 : Matrix (Fin T) (Fin k) K)
  let s := s.assign .SOld (rd T D k s).S
  let s := s.assign .gradS (0 : Matrix (Fin k) (Fin D) K)
  let s := s.assign .deltaGradS (0 : Matrix (Fin k) (Fin D) K)
  s.assign .incrS (0 : Matrix (Fin k) (Fin D) K)

/-- `_evaluate_cost`, src/reor/gpnh_convex_coding.py lines 317-321: only reads. -/
def evaluateCost (eps : K) (s : GPNHMem K) : K := (rd T D k s).evaluateCost eps

/-- `_dictionary_penalty_gradient`, src/reor/gpnh_convex_coding.py lines 323-337. -/
def dictionaryPenaltyGradient (eps : K) (s : GPNHMem K) : GPNHMem K :=
  if k = 1 then s.assign .gradS (0 : Matrix (Fin k) (Fin D) K)
  else
    let pre : K := 4 * eps / ((D : K) * (k : K) * ((k : K) - 1))
    let DM : Matrix (Fin k) (Fin k) K := fun i j => (k : K) * (if i = j then 1 else 0) - 1
    s.assign .gradS (DM * (pre • (rd T D k s).S))

/-- `_update_dictionary_gradient`, src/reor/gpnh_convex_coding.py lines 339-348. -/
def updateDictionaryGradient (eps : K) (s : GPNHMem K) : GPNHMem K :=
  let s := dictionaryPenaltyGradient T D k eps s
  let normalization : K := 1 / ((D : K) * (T : K))
  let s := s.augment .gradS ((rd T D k s).gradS + (-2 * normalization) • (rd T D k s).GtX)
  s.augment .gradS
    ((rd T D k s).gradS + (2 * normalization) • ((rd T D k s).GtG * (rd T D k s).S))

/-- The full step, src/reor/gpnh_convex_coding.py lines 368-371. -/
def dictionaryFirst (eps : K) (s : GPNHMem K) : GPNHMem K × K :=
  let s := s.augment .S ((rd T D k s).S + (rd T D k s).incrS)
  let s := s.assign .SSt ((rd T D k s).S * (rd T D k s).Sᵀ)
  (s, evaluateCost T D k eps s)

/-- A shorter step, src/reor/gpnh_convex_coding.py lines 381-384. -/
def dictionaryTrial (eps : K) (s : GPNHMem K) (step : K) : GPNHMem K × K :=
  let s := s.assign .S ((rd T D k s).SOld + step • (rd T D k s).incrS)
  let s := s.assign .SSt ((rd T D k s).S * (rd T D k s).Sᵀ)
  (s, evaluateCost T D k eps s)

/-- `_dictionary_line_search`, src/reor/gpnh_convex_coding.py lines 350-389. -/
def dictionaryLineSearch (cfg : LSConfig K) (eps : K) (s : GPNHMem K) : HPy K (GPNHMem K × K) := do
  let currentCost := evaluateCost T D k eps s
  let s := s.assign .SOld (rd T D k s).S
  let incrNorm := mulSum (rd T D k s).incrS (rd T D k s).gradS
  let r ← hLineSearch cfg (dictionaryFirst T D k eps) (dictionaryTrial T D k eps) s.rest.fSMem s
    currentCost incrNorm
  pure ({ r.state with rest := { r.state.rest with fSMem := r.mem } }, r.stepSize)

/-- First part of `_update_dictionary`, src/reor/gpnh_convex_coding.py lines 394-401. -/
def prepareDictionary (eps : K) (s : GPNHMem K) : GPNHMem K :=
  let s := s.assign .SSt ((rd T D k s).S * (rd T D k s).Sᵀ)
  let s := s.assign .GtX ((rd T D k s).Gammaᵀ * (rd T D k s).X)
  let s := s.assign .GtG ((rd T D k s).Gammaᵀ * (rd T D k s).Gamma)
  let s := updateDictionaryGradient T D k eps s
  let s := s.assign .incrS ((rd T D k s).S - (rd T D k s).alphaS • (rd T D k s).gradS)
  s.augment .incrS ((rd T D k s).incrS - (rd T D k s).S)

/-- Last part of `_update_dictionary`, src/reor/gpnh_convex_coding.py lines 405-417. -/
def finishDictionary (cfg : LSConfig K) (eps : K) (s : GPNHMem K) (stepSize : K) : GPNHMem K :=
  let s := s.assign .deltaGradS (rd T D k s).gradS
  let s := updateDictionaryGradient T D k eps s
  let s := s.assign .deltaGradS ((rd T D k s).gradS - deltaGradS T D k s)
  let sksk := stepSize ^ 2 * mulSum (rd T D k s).incrS (rd T D k s).incrS
  let beta := stepSize * mulSum (rd T D k s).incrS (deltaGradS T D k s)
  { s with rest := { s.rest with alphaS := nextSpgAlpha beta sksk cfg.alphaMin cfg.alphaMax } }

/-- `_update_dictionary`, src/reor/gpnh_convex_coding.py lines 391-419. -/
def updateDictionary (cfg : LSConfig K) (eps : K) (s : GPNHMem K) : HPy K (GPNHMem K) := do
  let s := prepareDictionary T D k eps s
  let r ← dictionaryLineSearch T D k cfg eps s
  pure (finishDictionary T D k cfg eps r.1 r.2)

/-- `_update_weights_gradient`, src/reor/gpnh_convex_coding.py lines 421-435. -/
def updateWeightsGradient (s : GPNHMem K) : GPNHMem K :=
  let s := s.assign .gradGamma (0 : Matrix (Fin T) (Fin k) K)
  let normalization : K := 1 / ((D : K) * (T : K))
  let s := s.augment .gradGamma ((rd T D k s).gradGamma + (-2 * normalization) • (rd T D k s).XSt)
  s.augment .gradGamma
    ((rd T D k s).gradGamma + (2 * normalization) • ((rd T D k s).Gamma * (rd T D k s).SSt))

/-- The full step, src/reor/gpnh_convex_coding.py lines 455-457. -/
def weightsFirst (eps : K) (s : GPNHMem K) : GPNHMem K × K :=
  let s := s.augment .Gamma ((rd T D k s).Gamma + (rd T D k s).incrGamma)
  (s, evaluateCost T D k eps s)

/-- A shorter step, src/reor/gpnh_convex_coding.py lines 467-469. -/
def weightsTrial (eps : K) (s : GPNHMem K) (step : K) : GPNHMem K × K :=
  let s := s.assign .Gamma ((rd T D k s).GammaOld + step • (rd T D k s).incrGamma)
  (s, evaluateCost T D k eps s)

/-- `_weights_line_search`, src/reor/gpnh_convex_coding.py lines 437-474. -/
def weightsLineSearch (cfg : LSConfig K) (eps : K) (s : GPNHMem K) : HPy K (GPNHMem K × K) := do
  let currentCost := evaluateCost T D k eps s
  let s := s.assign .GammaOld (rd T D k s).Gamma
  let incrNorm := mulSum (rd T D k s).incrGamma (rd T D k s).gradGamma
  let r ← hLineSearch cfg (weightsFirst T D k eps) (weightsTrial T D k eps) s.rest.fGammaMem s
    currentCost incrNorm
  pure ({ r.state with rest := { r.state.rest with fGammaMem := r.mem } }, r.stepSize)

/-- First part of `_update_weights`, src/reor/gpnh_convex_coding.py lines 479-486;
`simplex_project_rows` works in place (src/reor/simplex_projection.py lines 33-38). -/
def prepareWeights (s : GPNHMem K) : GPNHMem K :=
  let s := s.assign .SSt ((rd T D k s).S * (rd T D k s).Sᵀ)
  let s := s.assign .XSt ((rd T D k s).X * (rd T D k s).Sᵀ)
  let s := updateWeightsGradient T D k s
  let s := s.assign .incrGamma
    ((rd T D k s).Gamma - (rd T D k s).alphaGamma • (rd T D k s).gradGamma)
  let s := s.augment .incrGamma (simplexProjectRows (rd T D k s).incrGamma)
  s.augment .incrGamma ((rd T D k s).incrGamma - (rd T D k s).Gamma)

/-- Last part of `_update_weights`, src/reor/gpnh_convex_coding.py lines 490-502. -/
def finishWeights (cfg : LSConfig K) (s : GPNHMem K) (stepSize : K) : GPNHMem K :=
  let s := s.assign .deltaGradGamma (rd T D k s).gradGamma
  let s := updateWeightsGradient T D k s
  let s := s.assign .deltaGradGamma ((rd T D k s).gradGamma - deltaGradGamma T D k s)
  let sksk := stepSize ^ 2 * mulSum (rd T D k s).incrGamma (rd T D k s).incrGamma
  let beta := stepSize * mulSum (rd T D k s).incrGamma (deltaGradGamma T D k s)
  { s with rest := { s.rest with alphaGamma := nextSpgAlpha beta sksk cfg.alphaMin cfg.alphaMax } }

/-- `_update_weights`, src/reor/gpnh_convex_coding.py lines 476-504. -/
def updateWeights (cfg : LSConfig K) (eps : K) (s : GPNHMem K) : HPy K (GPNHMem K) := do
  let s := prepareWeights T D k s
  let r ← weightsLineSearch T D k cfg eps s
  pure (finishWeights T D k cfg r.1 r.2)

/-- `_iterate`, src/reor/gpnh_convex_coding.py lines 506-552. -/
def iterate (cfg : LSConfig K) (eps : K) (require : Bool) (tolerance : K) (maxIterations : ℕ)
    (updateDict updateWts : Bool) (s : GPNHMem K) : HPy K (IterResult (GPNHMem K) K) :=
  if D * T = 0 then HPy.raise .zeroDivisionError s.heap
  else
    hIterate (fun s => (s, evaluateCost T D k eps s)) require tolerance maxIterations
      ((if updateDict then [updateDictionary T D k cfg eps] else []) ++
       (if updateWts then [updateWeights T D k cfg eps] else [])) s

end GPNHMem

/-! ### The estimator -/

/-- A `GPNHConvexCoding` object between calls: like `GPNHObj`, with the addresses of its arrays. -/
structure GPNHHObj (R : Rng K) where
  nComponents : NumArg K
  epsilonStates : K
  init : Option String
  tolerance : NumArg K
  maxIterations : NumArg K
  randomState : R.G
  ls : LSConfig K
  require : Bool
  Gamma : Option ℕ := none
  S : Option ℕ := none
  nComponents_ : Option ℕ := none
  cost_ : Option K := none
  dictionary_ : Option ℕ := none
  nIter_ : Option ℕ := none

/-- The object with the values of its arrays. -/
def GPNHHObj.deref {R : Rng K} (obj : GPNHHObj R) (h : Heap K) : GPNHObj R :=
  { nComponents := obj.nComponents, epsilonStates := obj.epsilonStates, init := obj.init
    tolerance := obj.tolerance, maxIterations := obj.maxIterations, randomState := obj.randomState
    ls := obj.ls, require := obj.require
    Gamma := obj.Gamma.map h.cell
    S := obj.S.map h.cell
    nComponents_ := obj.nComponents_, cost_ := obj.cost_
    dictionary_ := obj.dictionary_.map h.cell
    nIter_ := obj.nIter_ }

/-- The address of an argument that has passed `check_array` (which rejects `None`; the check itself
is made on a copy, src/reor/gpnh_convex_coding.py lines 27-35, and its result is dropped). -/
def argAddr (a : Option ℕ) : ℕ := a.getD 0

/-- The starting point chosen by `_gpnh_convex_coding`, src/reor/gpnh_convex_coding.py
lines 574-594: the caller's arrays, or new ones.  Returns the memory and the addresses of the
dictionary and of the weights. -/
def hGpnhStart (env : Env K) (h : Heap K) {T D : ℕ} (data : Matrix (Fin T) (Fin D) K) (k : ℕ)
    (init : Option String) (dictionary weights : Option ℕ)
    (updateDictionary updateWeights : Bool) (kw : InitKwargs) (g : env.rng.G) :
    HPy K ((Heap K × ℕ × ℕ) × env.rng.G) :=
  if init = some "custom" then do
    let _ ← HPy.lift h (gpnhCheckInitWeights (weights.map h.cell) T k)
    let _ ← HPy.lift h (gpnhCheckInitDictionary (dictionary.map h.cell) k D)
    pure ((h, argAddr dictionary, argAddr weights), g)
  else if updateDictionary = false ∧ updateWeights = true then do
    let _ ← HPy.lift h (gpnhCheckInitDictionary (dictionary.map h.cell) k D)
    let w ← HPy.lift h (gpnhInitWeights env T k init kw g)
    pure ((h.alloc (Arr2.of w.1), argAddr dictionary, h.next), w.2)
  else if updateDictionary = true ∧ updateWeights = false then do
    let _ ← HPy.lift h (gpnhCheckInitWeights (weights.map h.cell) T k)
    let d ← HPy.lift h (gpnhInitDictionary env data k init kw g)
    pure ((h.alloc (Arr2.of d.1), h.next, argAddr weights), d.2)
  else do
    let r ← HPy.lift h (gpnhInitBoth env data k init kw g)
    pure (((h.alloc (Arr2.of r.1.1)).alloc (Arr2.of r.1.2), h.next, h.next + 1), r.2)

/-- `_gpnh_convex_coding`, src/reor/gpnh_convex_coding.py lines 554-610.  `data`, `dictionary`,
`weights` are the addresses of the arguments. -/
def hGpnhConvexCoding (env : Env K) (h : Heap K) (obj : GPNHHObj env.rng) (data : ℕ)
    (dictionary weights : Option ℕ) (updateDictionary updateWeights : Bool) (kw : InitKwargs) :
    HPy K (Heap K × GPNHHObj env.rng × FitInfo K) := do
  let T := (h.cell data).rows
  let D := (h.cell data).cols
  let obj := { obj with nComponents := defaultComponents obj.nComponents D }
  let p ← HPy.lift h (checkParams obj.nComponents obj.maxIterations obj.tolerance)
  let start ← hGpnhStart env h (h.cell data).val p.1 obj.init dictionary weights updateDictionary
    updateWeights kw obj.randomState
  let s := GPNHMem.initializeWorkspace T D p.1 obj.ls start.1.1 data start.1.2.2 start.1.2.1
  let r ← GPNHMem.iterate T D p.1 obj.ls obj.epsilonStates obj.require p.2.2 p.2.1 updateDictionary
    updateWeights s
  let warned := decide (r.nIter = p.2.1 ∧ p.2.2 > 0)
  pure (r.state.heap,
    { obj with
      randomState := start.2
      Gamma := some (r.state.addr .Gamma)
      S := some (r.state.addr .S) },
    { cost := r.cost, nIter := r.nIter, warned := warned, trace := r.trace })

/-- `fit_transform`, src/reor/gpnh_convex_coding.py lines 612-644: `self.dictionary_ = self.S` is a
second name for the dictionary, and `self.Gamma` itself is returned. -/
def hGpnhFitTransform (env : Env K) (h : Heap K) (obj : GPNHHObj env.rng) (data : ℕ)
    (dictionary weights : Option ℕ) (kw : InitKwargs)
    (updateDictionary updateWeights : Bool := true) :
    HPy K (Heap K × GPNHHObj env.rng × Option ℕ × FitInfo K) := do
  let r ← hGpnhConvexCoding env h obj data dictionary weights updateDictionary updateWeights kw
  let obj := { r.2.1 with
    nComponents_ := r.2.1.S.map (fun a => (r.1.cell a).rows)
    cost_ := some r.2.2.cost
    dictionary_ := r.2.1.S
    nIter_ := some r.2.2.nIter }
  pure (r.1, obj, obj.Gamma, r.2.2)

/-- `transform`, src/reor/gpnh_convex_coding.py lines 661-680. -/
def hGpnhTransform (env : Env K) (h : Heap K) (obj : GPNHHObj env.rng) (data : ℕ) :
    HPy K (Heap K × GPNHHObj env.rng × Option ℕ × FitInfo K) := do
  let r ← hGpnhConvexCoding env h obj data obj.S none false true {}
  pure (r.1, r.2.1, r.2.1.Gamma, r.2.2)

end Reor
