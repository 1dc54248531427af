import Verif.Model.MTD
import Verif.Model.GPNHHeap

/-!
`src/reor/mtd_convex_coding.py` with arrays in memory: the same functions as in `Verif.Model.MTD`,
statement by statement, keeping apart new arrays (`assign`), in-place changes (`augment`) and names.
The order weights are stored as one row, the transition matrices one below the other, which is how
numpy lays them out.  `trace_XtX` (written, never read) is left out.
-/

namespace Reor

open scoped BigOperators Matrix

variable {K : Type} [Field K] [LinearOrder K]

/-! ### Arrays of one and three dimensions -/

/-- A one-dimensional array as a row. -/
def asRow {n : ℕ} (v : Fin n → K) : Matrix (Fin 1) (Fin n) K := fun _ j => v j

/-- The row read back. -/
def ofRow {n : ℕ} (M : Matrix (Fin 1) (Fin n) K) : Fin n → K := fun j => M 0 j

/-- A three-dimensional array as its matrices one below the other. -/
def stack {p m n : ℕ} (A : Fin p → Matrix (Fin m) (Fin n) K) : Matrix (Fin (p * m)) (Fin n) K :=
  fun r j => A (finProdFinEquiv.symm r).1 (finProdFinEquiv.symm r).2 j

/-- The matrices read back. -/
def unstack {p m n : ℕ} (M : Matrix (Fin (p * m)) (Fin n) K) : Fin p → Matrix (Fin m) (Fin n) K :=
  fun i l j => M (finProdFinEquiv (i, l)) j

/-- A one-dimensional array of a caller, held in memory as a row. -/
def Arr2.asArr1 (A : Arr2 K) : Arr1 K := ⟨A.cols, ofRow (A.at 1 A.cols)⟩

/-- A three-dimensional array of a caller: where it is in memory, and its shape. -/
structure Ref3 where
  addr : ℕ
  size : ℕ
  rows : ℕ
  cols : ℕ

/-- Its contents. -/
def Ref3.read (h : Heap K) (r : Ref3) : Arr3 K :=
  ⟨r.size, r.rows, r.cols, unstack ((h.cell r.addr).at (r.size * r.rows) r.cols)⟩

/-! ### The solver -/

/-- The array attributes of an `MTDConvexCoding` object, src/reor/mtd_convex_coding.py
lines 227-258. -/
inductive MTDAttr where
  | X | Gamma | S | orderWeights | transitionMatrices | GtG | GtX | XSt | SSt | Z
  | GammaOld | gradGamma | deltaGradGamma | incrGamma
  | SOld | gradS | deltaGradS | incrS
  | orderWeightsOld | gradOrderWeights | deltaGradOrderWeights | incrOrderWeights
  | transitionMatricesOld | gradTransitionMatrices | deltaGradTransitionMatrices
  | incrTransitionMatrices
  deriving DecidableEq

/-- Their shapes, for data of shape `T × D`, `k` components and `p` lags. -/
def mtdShape (T D k p : ℕ) : MTDAttr → ℕ × ℕ
  | .X => (T, D)
  | .Gamma | .XSt | .Z | .GammaOld | .gradGamma | .deltaGradGamma | .incrGamma => (T, k)
  | .S | .GtX | .SOld | .gradS | .deltaGradS | .incrS => (k, D)
  | .GtG | .SSt => (k, k)
  | .orderWeights | .orderWeightsOld | .gradOrderWeights | .deltaGradOrderWeights
  | .incrOrderWeights => (1, p)
  | .transitionMatrices | .transitionMatricesOld | .gradTransitionMatrices
  | .deltaGradTransitionMatrices | .incrTransitionMatrices => (p * k, k)

/-- The scalar attributes, src/reor/mtd_convex_coding.py lines 260-268. -/
structure MTDScalars (K : Type) where
  alphaGamma : K
  alphaS : K
  alphaParameters : K
  fSMem : List K
  fGammaMem : List K
  fParametersMem : List K

/-- An `MTDConvexCoding` object during a fit. -/
abbrev MTDMem (K : Type) := HState MTDAttr (MTDScalars K) K

namespace MTDMem

/-- The values of the attributes used by `Verif.Model.MTD`, read from memory. -/
def rd (T D k p : ℕ) (s : MTDMem K) : MTDState T D k p K :=
  { X := s.val (mtdShape T D k p) .X
    Gamma := s.val (mtdShape T D k p) .Gamma
    S := s.val (mtdShape T D k p) .S
    GtG := s.val (mtdShape T D k p) .GtG
    GtX := s.val (mtdShape T D k p) .GtX
    XSt := s.val (mtdShape T D k p) .XSt
    SSt := s.val (mtdShape T D k p) .SSt
    GammaOld := s.val (mtdShape T D k p) .GammaOld
    gradGamma := s.val (mtdShape T D k p) .gradGamma
    incrGamma := s.val (mtdShape T D k p) .incrGamma
    SOld := s.val (mtdShape T D k p) .SOld
    gradS := s.val (mtdShape T D k p) .gradS
    incrS := s.val (mtdShape T D k p) .incrS
    alphaGamma := s.rest.alphaGamma
    alphaS := s.rest.alphaS
    fSMem := s.rest.fSMem
    fGammaMem := s.rest.fGammaMem
    orderWeights := ofRow (s.val (mtdShape T D k p) .orderWeights)
    transitionMatrices := unstack (s.val (mtdShape T D k p) .transitionMatrices)
    Z := s.val (mtdShape T D k p) .Z
    orderWeightsOld := ofRow (s.val (mtdShape T D k p) .orderWeightsOld)
    gradOrderWeights := ofRow (s.val (mtdShape T D k p) .gradOrderWeights)
    incrOrderWeights := ofRow (s.val (mtdShape T D k p) .incrOrderWeights)
    transitionMatricesOld := unstack (s.val (mtdShape T D k p) .transitionMatricesOld)
    gradTransitionMatrices := unstack (s.val (mtdShape T D k p) .gradTransitionMatrices)
    incrTransitionMatrices := unstack (s.val (mtdShape T D k p) .incrTransitionMatrices)
    alphaParameters := s.rest.alphaParameters
    fParametersMem := s.rest.fParametersMem }

/-- `self.delta_grad_Gamma`, `self.delta_grad_S`, `self.delta_grad_order_weights` and
`self.delta_grad_transition_matrices`. -/
def deltaGradGamma (T D k p : ℕ) (s : MTDMem K) : Matrix (Fin T) (Fin k) K :=
  s.val (mtdShape T D k p) .deltaGradGamma

@[inherit_doc deltaGradGamma]
def deltaGradS (T D k p : ℕ) (s : MTDMem K) : Matrix (Fin k) (Fin D) K :=
  s.val (mtdShape T D k p) .deltaGradS

@[inherit_doc deltaGradGamma]
def deltaGradOrderWeights (T D k p : ℕ) (s : MTDMem K) : Fin p → K :=
  ofRow (s.val (mtdShape T D k p) .deltaGradOrderWeights)

@[inherit_doc deltaGradGamma]
def deltaGradTransitionMatrices (T D k p : ℕ) (s : MTDMem K) : Fin p → Matrix (Fin k) (Fin k) K :=
  unstack (s.val (mtdShape T D k p) .deltaGradTransitionMatrices)

variable (T D k : ℕ) {p : ℕ}

/-- One round of the loop of `_update_predicted_weights`, src/reor/mtd_convex_coding.py
lines 325-328: `self.Z[max_lag:] += ...`. -/
def predictedStep (c : MTDConfig p K) (s : MTDMem K) (i : Fin p) : MTDMem K :=
  s.augment .Z (Matrix.of fun (t : Fin T) (j : Fin k) =>
    if c.maxLag ≤ t then
      (rd T D k p s).Z t j + (rd T D k p s).orderWeights i *
        ∑ l, rowAt (rd T D k p s).Gamma (c.maxLag - c.lags i + ((t : ℕ) - c.maxLag)) l *
          ((rd T D k p s).transitionMatrices i)ᵀ l j
    else (rd T D k p s).Z t j)

/-- `_update_predicted_weights`, src/reor/mtd_convex_coding.py lines 317-328: a new array, filled in
place. -/
def updatePredictedWeights (c : MTDConfig p K) (s : MTDMem K) : MTDMem K :=
  let s := s.assign .Z (0 : Matrix (Fin T) (Fin k) K)
  let s := s.augment .Z (Matrix.of fun (t : Fin T) (j : Fin k) =>
    if (t : ℕ) < c.maxLag then (rd T D k p s).Gamma t j else (rd T D k p s).Z t j)
  (List.finRange p).foldl (predictedStep T D k c) s

/-- Lines 821-825 of `_mtd_convex_coding` and `_initialize_workspace`,
src/reor/mtd_convex_coding.py lines 270-315.  `data`, `weights`, `dictionary`, `orderWeights`,
`transitionMatrices` are addresses; the attributes not assigned yet are taken to name the data.  The
call of `_update_predicted_weights` (line 279) is moved to the end: nothing after it changes what it
reads. -/
def initializeWorkspace (c : MTDConfig p K) (h : Heap K)
    (data weights dictionary orderWeights transitionMatrices : ℕ) : MTDMem K :=
  let s : MTDMem K :=
    { addr := fun _ => data
      rest :=
        { alphaGamma := 1, alphaS := 1, alphaParameters := 1
          fSMem := List.replicate c.ls.memory 0
          fGammaMem := List.replicate c.ls.memory 0
          fParametersMem := List.replicate c.ls.memory 0 }
      heap := h }
  let s := s.assign .X ((s.heap.cell data).at T D)
  let s := s.assign .Gamma ((s.heap.cell weights).at T k)
  let s := s.assign .S ((s.heap.cell dictionary).at k D)
  let s := s.assign .orderWeights ((s.heap.cell orderWeights).at 1 p)
  let s := s.assign .transitionMatrices ((s.heap.cell transitionMatrices).at (p * k) k)
  let s := s.assign .GtG ((rd T D k p s).Gammaᵀ * (rd T D k p s).Gamma)
  let s := s.assign .GtX ((rd T D k p s).Gammaᵀ * (rd T D k p s).X)
  let s := s.assign .XSt ((rd T D k p s).X * (rd T D k p s).Sᵀ)
  let s := s.assign .SSt ((rd T D k p s).S * (rd T D k p s).Sᵀ)
  let s := s.assign .Z (0 : Matrix (Fin T) (Fin k) K)
  let s := s.assign .GammaOld (rd T D k p s).Gamma
  let s := s.assign .gradGamma (0 : Matrix (Fin T) (Fin k) K)
  let s := s.assign .deltaGradGamma (0 : Matrix (Fin T) (Fin k) K)
  let s := s.assign .incrGamma (0 : Matrix (Fin T) (Fin k) K)
  let s := s.assign .SOld (rd T D k p s).S
  let s := s.assign .gradS (0 : Matrix (Fin k) (Fin D) K)
  let s := s.assign .deltaGradS (0 : Matrix (Fin k) (Fin D) K)
  let s := s.assign .incrS (0 : Matrix (Fin k) (Fin D) K)
  let s := s.assign .orderWeightsOld (asRow (rd T D k p s).orderWeights)
  let s := s.assign .gradOrderWeights (asRow (0 : Fin p → K))
  let s := s.assign .deltaGradOrderWeights (asRow (0 : Fin p → K))
  let s := s.assign .incrOrderWeights (asRow (0 : Fin p → K))
  let s := s.assign .transitionMatricesOld (stack (rd T D k p s).transitionMatrices)
  let s := s.assign .gradTransitionMatrices (stack (0 : Fin p → Matrix (Fin k) (Fin k) K))
  let s := s.assign .deltaGradTransitionMatrices (stack (0 : Fin p → Matrix (Fin k) (Fin k) K))
  let s := s.assign .incrTransitionMatrices (stack (0 : Fin p → Matrix (Fin k) (Fin k) K))
  updatePredictedWeights T D k c s

/-- `_evaluate_cost`, src/reor/mtd_convex_coding.py lines 375-380: only reads. -/
def evaluateCost (c : MTDConfig p K) (s : MTDMem K) : K := (rd T D k p s).evaluateCost c

/-- `_dictionary_penalty_gradient`, src/reor/mtd_convex_coding.py lines 382-396. -/
def dictionaryPenaltyGradient (c : MTDConfig p K) (s : MTDMem K) : MTDMem K :=
  if k = 1 then s.assign .gradS (0 : Matrix (Fin k) (Fin D) K)
  else
    let pre : K := 4 * c.epsilonStates / ((D : K) * (k : K) * ((k : K) - 1))
    let DM : Matrix (Fin k) (Fin k) K := fun i j => (k : K) * (if i = j then 1 else 0) - 1
    s.assign .gradS (DM * (pre • (rd T D k p s).S))

/-- `_update_dictionary_gradient`, src/reor/mtd_convex_coding.py lines 398-407. -/
def updateDictionaryGradient (c : MTDConfig p K) (s : MTDMem K) : MTDMem K :=
  let s := dictionaryPenaltyGradient T D k c s
  let normalization : K := 1 / ((D : K) * (T : K))
  let s := s.augment .gradS ((rd T D k p s).gradS + (-2 * normalization) • (rd T D k p s).GtX)
  s.augment .gradS
    ((rd T D k p s).gradS + (2 * normalization) • ((rd T D k p s).GtG * (rd T D k p s).S))

/-- The full step, src/reor/mtd_convex_coding.py lines 427-430. -/
def dictionaryFirst (c : MTDConfig p K) (s : MTDMem K) : MTDMem K × K :=
  let s := s.augment .S ((rd T D k p s).S + (rd T D k p s).incrS)
  let s := s.assign .SSt ((rd T D k p s).S * (rd T D k p s).Sᵀ)
  (s, evaluateCost T D k c s)

/-- A shorter step, src/reor/mtd_convex_coding.py lines 440-443. -/
def dictionaryTrial (c : MTDConfig p K) (s : MTDMem K) (step : K) : MTDMem K × K :=
  let s := s.assign .S ((rd T D k p s).SOld + step • (rd T D k p s).incrS)
  let s := s.assign .SSt ((rd T D k p s).S * (rd T D k p s).Sᵀ)
  (s, evaluateCost T D k c s)

/-- `_dictionary_line_search`, src/reor/mtd_convex_coding.py lines 409-448. -/
def dictionaryLineSearch (c : MTDConfig p K) (s : MTDMem K) : HPy K (MTDMem K × K) := do
  let currentCost := evaluateCost T D k c s
  let s := s.assign .SOld (rd T D k p s).S
  let incrNorm := mulSum (rd T D k p s).incrS (rd T D k p s).gradS
  let r ← hLineSearch c.ls (dictionaryFirst T D k c) (dictionaryTrial T D k c) s.rest.fSMem s
    currentCost incrNorm
  pure ({ r.state with rest := { r.state.rest with fSMem := r.mem } }, r.stepSize)

/-- First part of `_update_dictionary`, src/reor/mtd_convex_coding.py lines 453-460. -/
def prepareDictionary (c : MTDConfig p K) (s : MTDMem K) : MTDMem K :=
  let s := s.assign .SSt ((rd T D k p s).S * (rd T D k p s).Sᵀ)
  let s := s.assign .GtX ((rd T D k p s).Gammaᵀ * (rd T D k p s).X)
  let s := s.assign .GtG ((rd T D k p s).Gammaᵀ * (rd T D k p s).Gamma)
  let s := updateDictionaryGradient T D k c s
  let s := s.assign .incrS ((rd T D k p s).S - (rd T D k p s).alphaS • (rd T D k p s).gradS)
  s.augment .incrS ((rd T D k p s).incrS - (rd T D k p s).S)

/-- Last part of `_update_dictionary`, src/reor/mtd_convex_coding.py lines 464-476. -/
def finishDictionary (c : MTDConfig p K) (s : MTDMem K) (stepSize : K) : MTDMem K :=
  let s := s.assign .deltaGradS (rd T D k p s).gradS
  let s := updateDictionaryGradient T D k c s
  let s := s.assign .deltaGradS ((rd T D k p s).gradS - deltaGradS T D k p s)
  let sksk := stepSize ^ 2 * mulSum (rd T D k p s).incrS (rd T D k p s).incrS
  let beta := stepSize * mulSum (rd T D k p s).incrS (deltaGradS T D k p s)
  { s with rest := { s.rest with alphaS := nextSpgAlpha beta sksk c.ls.alphaMin c.ls.alphaMax } }

/-- `_update_dictionary`, src/reor/mtd_convex_coding.py lines 450-478. -/
def updateDictionary (c : MTDConfig p K) (s : MTDMem K) : HPy K (MTDMem K) := do
  let s := prepareDictionary T D k c s
  let r ← dictionaryLineSearch T D k c s
  pure (finishDictionary T D k c r.1 r.2)

/-- One round of the loop of `_weights_penalty_gradient`, src/reor/mtd_convex_coding.py
lines 490-495: `self.grad_Gamma[:-lag] += ...`; `residual` is a temporary array. -/
def penaltyStep (c : MTDConfig p K) (residual : Matrix (Fin T) (Fin k) K) (s : MTDMem K)
    (i : Fin p) : MTDMem K :=
  s.augment .gradGamma (Matrix.of fun (t : Fin T) (j : Fin k) =>
    if (t : ℕ) < T - c.lags i then
      (rd T D k p s).gradGamma t j +
        -2 * c.epsilonWeights * (rd T D k p s).weightsNormalization c *
          (rd T D k p s).orderWeights i *
          ∑ l, rowAt residual (c.lags i + t) l * (rd T D k p s).transitionMatrices i l j
    else (rd T D k p s).gradGamma t j)

/-- `_weights_penalty_gradient`, src/reor/mtd_convex_coding.py lines 480-499. -/
def weightsPenaltyGradient (c : MTDConfig p K) (s : MTDMem K) : MTDMem K :=
  let s := s.assign .gradGamma (0 : Matrix (Fin T) (Fin k) K)
  let residual := (rd T D k p s).Gamma - (rd T D k p s).Z
  let s := (List.finRange p).foldl (penaltyStep T D k c residual) s
  s.augment .gradGamma (Matrix.of fun (t : Fin T) (j : Fin k) =>
    if c.maxLag ≤ t then
      (rd T D k p s).gradGamma t j + 2 * c.epsilonWeights *
        (rd T D k p s).weightsNormalization c * ((rd T D k p s).Gamma t j - (rd T D k p s).Z t j)
    else (rd T D k p s).gradGamma t j)

/-- `_update_weights_gradient`, src/reor/mtd_convex_coding.py lines 501-510. -/
def updateWeightsGradient (c : MTDConfig p K) (s : MTDMem K) : MTDMem K :=
  let s := weightsPenaltyGradient T D k c s
  let normalization : K := 1 / ((D : K) * (T : K))
  let s := s.augment .gradGamma
    ((rd T D k p s).gradGamma + (-2 * normalization) • (rd T D k p s).XSt)
  s.augment .gradGamma
    ((rd T D k p s).gradGamma + (2 * normalization) • ((rd T D k p s).Gamma * (rd T D k p s).SSt))

/-- The full step, src/reor/mtd_convex_coding.py lines 530-533. -/
def weightsFirst (c : MTDConfig p K) (s : MTDMem K) : MTDMem K × K :=
  let s := s.augment .Gamma ((rd T D k p s).Gamma + (rd T D k p s).incrGamma)
  let s := updatePredictedWeights T D k c s
  (s, evaluateCost T D k c s)

/-- A shorter step, src/reor/mtd_convex_coding.py lines 543-546. -/
def weightsTrial (c : MTDConfig p K) (s : MTDMem K) (step : K) : MTDMem K × K :=
  let s := s.assign .Gamma ((rd T D k p s).GammaOld + step • (rd T D k p s).incrGamma)
  let s := updatePredictedWeights T D k c s
  (s, evaluateCost T D k c s)

/-- `_weights_line_search`, src/reor/mtd_convex_coding.py lines 512-551. -/
def weightsLineSearch (c : MTDConfig p K) (s : MTDMem K) : HPy K (MTDMem K × K) := do
  let currentCost := evaluateCost T D k c s
  let s := s.assign .GammaOld (rd T D k p s).Gamma
  let incrNorm := mulSum (rd T D k p s).incrGamma (rd T D k p s).gradGamma
  let r ← hLineSearch c.ls (weightsFirst T D k c) (weightsTrial T D k c) s.rest.fGammaMem s
    currentCost incrNorm
  pure ({ r.state with rest := { r.state.rest with fGammaMem := r.mem } }, r.stepSize)

/-- First part of `_update_weights`, src/reor/mtd_convex_coding.py lines 556-563;
`simplex_project_rows` works in place (src/reor/simplex_projection.py lines 33-38). -/
def prepareWeights (c : MTDConfig p K) (s : MTDMem K) : MTDMem K :=
  let s := s.assign .SSt ((rd T D k p s).S * (rd T D k p s).Sᵀ)
  let s := s.assign .XSt ((rd T D k p s).X * (rd T D k p s).Sᵀ)
  let s := updateWeightsGradient T D k c s
  let s := s.assign .incrGamma
    ((rd T D k p s).Gamma - (rd T D k p s).alphaGamma • (rd T D k p s).gradGamma)
  let s := s.augment .incrGamma (simplexProjectRows (rd T D k p s).incrGamma)
  s.augment .incrGamma ((rd T D k p s).incrGamma - (rd T D k p s).Gamma)

/-- Last part of `_update_weights`, src/reor/mtd_convex_coding.py lines 567-579. -/
def finishWeights (c : MTDConfig p K) (s : MTDMem K) (stepSize : K) : MTDMem K :=
  let s := s.assign .deltaGradGamma (rd T D k p s).gradGamma
  let s := updateWeightsGradient T D k c s
  let s := s.assign .deltaGradGamma ((rd T D k p s).gradGamma - deltaGradGamma T D k p s)
  let sksk := stepSize ^ 2 * mulSum (rd T D k p s).incrGamma (rd T D k p s).incrGamma
  let beta := stepSize * mulSum (rd T D k p s).incrGamma (deltaGradGamma T D k p s)
  { s with
    rest := { s.rest with alphaGamma := nextSpgAlpha beta sksk c.ls.alphaMin c.ls.alphaMax } }

/-- `_update_weights`, src/reor/mtd_convex_coding.py lines 553-581. -/
def updateWeights (c : MTDConfig p K) (s : MTDMem K) : HPy K (MTDMem K) :=
  if T = c.maxLag then HPy.raise .nonFinite s.heap
  else do
    let r ← weightsLineSearch T D k c (prepareWeights T D k c s)
    pure (finishWeights T D k c r.1 r.2)

/-- One round of the loop of `_update_parameters_gradient`, src/reor/mtd_convex_coding.py
lines 595-603: `self.grad_order_weights[i] = ...` and `self.grad_transition_matrices[i] = ...`;
`residual` is a temporary array. -/
def parametersGradientStep (c : MTDConfig p K)
    (residual : Matrix (Fin (T - c.maxLag)) (Fin k) K) (s : MTDMem K) (i : Fin p) : MTDMem K :=
  let lagged (s : MTDMem K) : Matrix (Fin (T - c.maxLag)) (Fin k) K := fun r =>
    rowAt (rd T D k p s).Gamma (c.maxLag - c.lags i + r)
  let s := s.augment .gradOrderWeights (asRow (Function.update (rd T D k p s).gradOrderWeights i
    (-2 * c.epsilonWeights * (rd T D k p s).weightsNormalization c *
      (residual * (rd T D k p s).transitionMatrices i * (lagged s)ᵀ).trace)))
  s.augment .gradTransitionMatrices (stack (Function.update (rd T D k p s).gradTransitionMatrices i
    ((-2 * c.epsilonWeights * (rd T D k p s).weightsNormalization c *
      (rd T D k p s).orderWeights i) • (residualᵀ * lagged s))))

/-- `_update_parameters_gradient`, src/reor/mtd_convex_coding.py lines 583-603. -/
def updateParametersGradient (c : MTDConfig p K) (s : MTDMem K) : MTDMem K :=
  let residual : Matrix (Fin (T - c.maxLag)) (Fin k) K := fun r =>
    rowAt ((rd T D k p s).Gamma - (rd T D k p s).Z) (c.maxLag + r)
  let s := s.assign .gradOrderWeights (asRow (0 : Fin p → K))
  let s := s.assign .gradTransitionMatrices (stack (0 : Fin p → Matrix (Fin k) (Fin k) K))
  (List.finRange p).foldl (parametersGradientStep T D k c residual) s

/-- The full step, src/reor/mtd_convex_coding.py lines 626-630. -/
def parametersFirst (c : MTDConfig p K) (s : MTDMem K) : MTDMem K × K :=
  let s := s.augment .orderWeights
    (asRow ((rd T D k p s).orderWeights + (rd T D k p s).incrOrderWeights))
  let s := s.augment .transitionMatrices
    (stack ((rd T D k p s).transitionMatrices + (rd T D k p s).incrTransitionMatrices))
  let s := updatePredictedWeights T D k c s
  (s, evaluateCost T D k c s)

/-- A shorter step, src/reor/mtd_convex_coding.py lines 641-647. -/
def parametersTrial (c : MTDConfig p K) (s : MTDMem K) (step : K) : MTDMem K × K :=
  let s := s.assign .orderWeights
    (asRow ((rd T D k p s).orderWeightsOld + step • (rd T D k p s).incrOrderWeights))
  let s := s.assign .transitionMatrices
    (stack ((rd T D k p s).transitionMatricesOld + step • (rd T D k p s).incrTransitionMatrices))
  let s := updatePredictedWeights T D k c s
  (s, evaluateCost T D k c s)

/-- `_parameters_line_search`, src/reor/mtd_convex_coding.py lines 605-652. -/
def parametersLineSearch (c : MTDConfig p K) (s : MTDMem K) : HPy K (MTDMem K × K) := do
  let currentCost := evaluateCost T D k c s
  let s := s.assign .orderWeightsOld (asRow (rd T D k p s).orderWeights)
  let s := s.assign .transitionMatricesOld (stack (rd T D k p s).transitionMatrices)
  let incrNorm := vecMulSum (rd T D k p s).incrOrderWeights (rd T D k p s).gradOrderWeights +
    mulSum3 (rd T D k p s).incrTransitionMatrices (rd T D k p s).gradTransitionMatrices
  let r ← hLineSearch c.ls (parametersFirst T D k c) (parametersTrial T D k c)
    s.rest.fParametersMem s currentCost incrNorm
  pure ({ r.state with rest := { r.state.rest with fParametersMem := r.mem } }, r.stepSize)

/-- One round of the loop of `_update_parameters`, src/reor/mtd_convex_coding.py lines 670-671:
`simplex_project_columns` works in place on the `i`-th matrix. -/
def projectStep (s : MTDMem K) (i : Fin p) : MTDMem K :=
  s.augment .incrTransitionMatrices (stack (Function.update (rd T D k p s).incrTransitionMatrices i
    (simplexProjectColumns ((rd T D k p s).incrTransitionMatrices i))))

/-- First part of `_update_parameters`, src/reor/mtd_convex_coding.py lines 657-674;
`simplex_project_vector` makes a new array. -/
def prepareParameters (c : MTDConfig p K) (s : MTDMem K) : MTDMem K :=
  let s := updatePredictedWeights T D k c s
  let s := updateParametersGradient T D k c s
  let s := s.assign .incrOrderWeights (asRow ((rd T D k p s).orderWeights -
    (rd T D k p s).alphaParameters • (rd T D k p s).gradOrderWeights))
  let s := s.assign .incrTransitionMatrices (stack ((rd T D k p s).transitionMatrices -
    (rd T D k p s).alphaParameters • (rd T D k p s).gradTransitionMatrices))
  let s := s.assign .incrOrderWeights
    (asRow (simplexProjectVector (rd T D k p s).incrOrderWeights))
  let s := (List.finRange p).foldl (projectStep T D k) s
  let s := s.augment .incrOrderWeights
    (asRow ((rd T D k p s).incrOrderWeights - (rd T D k p s).orderWeights))
  s.augment .incrTransitionMatrices
    (stack ((rd T D k p s).incrTransitionMatrices - (rd T D k p s).transitionMatrices))

/-- Last part of `_update_parameters`, src/reor/mtd_convex_coding.py lines 678-698. -/
def finishParameters (c : MTDConfig p K) (s : MTDMem K) (stepSize : K) : MTDMem K :=
  let s := s.assign .deltaGradOrderWeights (asRow (rd T D k p s).gradOrderWeights)
  let s := s.assign .deltaGradTransitionMatrices (stack (rd T D k p s).gradTransitionMatrices)
  let s := updateParametersGradient T D k c s
  let s := s.assign .deltaGradOrderWeights
    (asRow ((rd T D k p s).gradOrderWeights - deltaGradOrderWeights T D k p s))
  let s := s.assign .deltaGradTransitionMatrices
    (stack ((rd T D k p s).gradTransitionMatrices - deltaGradTransitionMatrices T D k p s))
  let sksk := stepSize ^ 2 *
    (vecMulSum (rd T D k p s).incrOrderWeights (rd T D k p s).incrOrderWeights +
      mulSum3 (rd T D k p s).incrTransitionMatrices (rd T D k p s).incrTransitionMatrices)
  let beta := stepSize *
    (vecMulSum (rd T D k p s).incrOrderWeights (deltaGradOrderWeights T D k p s) +
      mulSum3 (rd T D k p s).incrTransitionMatrices (deltaGradTransitionMatrices T D k p s))
  { s with
    rest := { s.rest with alphaParameters := nextSpgAlpha beta sksk c.ls.alphaMin c.ls.alphaMax } }

/-- `_update_parameters`, src/reor/mtd_convex_coding.py lines 654-700. -/
def updateParameters (c : MTDConfig p K) (s : MTDMem K) : HPy K (MTDMem K) :=
  if T = c.maxLag then HPy.raise .nonFinite s.heap
  else do
    let r ← parametersLineSearch T D k c (prepareParameters T D k c s)
    pure (finishParameters T D k c r.1 r.2)

/-- `_iterate`, src/reor/mtd_convex_coding.py lines 702-756. -/
def iterate (c : MTDConfig p K) (require : Bool) (tolerance : K) (maxIterations : ℕ)
    (updateDict updateWts updateParams : Bool) (s : MTDMem K) :
    HPy K (IterResult (MTDMem K) K) :=
  if D * T = 0 then HPy.raise .zeroDivisionError s.heap
  else if k ≠ 1 ∧ T = c.maxLag then HPy.raise .nonFinite s.heap
  else
    hIterate (fun s => (s, evaluateCost T D k c s)) require tolerance maxIterations
      ((if updateDict then [updateDictionary T D k c] else []) ++
       (if updateWts then [updateWeights T D k c] else []) ++
       (if updateParams then [updateParameters T D k c] else [])) s

end MTDMem

/-! ### The estimator -/

/-- Where the arrays of a fitted object are, with the sizes they have. -/
structure MTDRefs where
  T : ℕ
  D : ℕ
  k : ℕ
  Gamma : ℕ
  S : ℕ
  orderWeights : ℕ
  transitionMatrices : ℕ

/-- An `MTDConvexCoding` object between calls: like `MTDObj`, with the addresses of its arrays. -/
structure MTDHObj (R : Rng K) (p : ℕ) where
  nComponents : NumArg K
  lags : Fin p → ℕ
  epsilonStates : K
  epsilonWeights : K
  init : Option String
  tolerance : NumArg K
  maxIterations : NumArg K
  randomState : R.G
  ls : LSConfig K
  require : Bool
  vars : Option MTDRefs := none
  nComponents_ : Option ℕ := none
  cost_ : Option K := none
  dictionary_ : Option ℕ := none
  nIter_ : Option ℕ := none

/-- The contents of the arrays. -/
def MTDRefs.deref (p : ℕ) (h : Heap K) (v : MTDRefs) : MTDVars p K :=
  { T := v.T, D := v.D, k := v.k
    Gamma := (h.cell v.Gamma).at v.T v.k
    S := (h.cell v.S).at v.k v.D
    orderWeights := ofRow ((h.cell v.orderWeights).at 1 p)
    transitionMatrices := unstack ((h.cell v.transitionMatrices).at (p * v.k) v.k) }

/-- The object with the values of its arrays. -/
def MTDHObj.deref {R : Rng K} {p : ℕ} (obj : MTDHObj R p) (h : Heap K) : MTDObj R p :=
  { nComponents := obj.nComponents, lags := obj.lags, epsilonStates := obj.epsilonStates
    epsilonWeights := obj.epsilonWeights, init := obj.init, tolerance := obj.tolerance
    maxIterations := obj.maxIterations, randomState := obj.randomState, ls := obj.ls
    require := obj.require
    vars := obj.vars.map (MTDRefs.deref p h)
    nComponents_ := obj.nComponents_, cost_ := obj.cost_
    dictionary_ := obj.dictionary_.map h.cell
    nIter_ := obj.nIter_ }

/-- What the solver reads of the object. -/
def MTDHObj.config {R : Rng K} {p : ℕ} (obj : MTDHObj R p) : MTDConfig p K :=
  ⟨obj.lags, obj.epsilonStates, obj.epsilonWeights, obj.ls⟩

/-- The caller's optional arrays. -/
structure MTDHArgs where
  dictionary : Option ℕ := none
  weights : Option ℕ := none
  orderWeights : Option ℕ := none
  transitionMatrices : Option Ref3 := none

/-- Their contents. -/
def MTDHArgs.deref (h : Heap K) (a : MTDHArgs) : MTDArgs K :=
  { dictionary := a.dictionary.map h.cell
    weights := a.weights.map h.cell
    orderWeights := a.orderWeights.map fun x => (h.cell x).asArr1
    transitionMatrices := a.transitionMatrices.map (Ref3.read h) }

/-- Where the arrays of the starting point are. -/
structure MTDStartRefs where
  dictionary : ℕ
  weights : ℕ
  orderWeights : ℕ
  transitionMatrices : ℕ

/-- The dictionary of the starting point, src/reor/mtd_convex_coding.py lines 792-798. -/
def hMtdStartDictionary (env : Env K) (h : Heap K) {T D : ℕ} (data : Matrix (Fin T) (Fin D) K)
    (k : ℕ) (init : Option String) (args : MTDHArgs) (fl : MTDFlags) (kw : InitKwargs)
    (g : env.rng.G) : HPy K ((Heap K × ℕ) × env.rng.G) :=
  if fl.updateDictionary then do
    let d ← HPy.lift h (mtdInitDictionary env data k init kw g)
    pure ((h.alloc (Arr2.of d.1), h.next), d.2)
  else do
    let _ ← HPy.lift h (mtdCheckInitDictionary (args.deref h).dictionary k D)
    pure ((h, argAddr args.dictionary), g)

/-- The weights of the starting point, src/reor/mtd_convex_coding.py lines 800-806. -/
def hMtdStartWeights (env : Env K) (h : Heap K) (T k : ℕ) (init : Option String) (args : MTDHArgs)
    (fl : MTDFlags) (kw : InitKwargs) (g : env.rng.G) : HPy K ((Heap K × ℕ) × env.rng.G) :=
  if fl.updateWeights then do
    let w ← HPy.lift h (mtdInitWeights env T k init kw g)
    pure ((h.alloc (Arr2.of w.1), h.next), w.2)
  else do
    let _ ← HPy.lift h (mtdCheckInitWeights (args.deref h).weights T k)
    pure ((h, argAddr args.weights), g)

/-- The parameters of the starting point, src/reor/mtd_convex_coding.py lines 808-819. -/
def hMtdStartParameters (env : Env K) (h : Heap K) (k p : ℕ) (init : Option String)
    (args : MTDHArgs) (fl : MTDFlags) (kw : InitKwargs) (g : env.rng.G) :
    HPy K ((Heap K × ℕ × ℕ) × env.rng.G) :=
  if fl.updateParameters then do
    let a ← HPy.lift h (mtdInitParameters env k p init kw g)
    pure (((h.alloc (Arr2.of (asRow a.1.1))).alloc (Arr2.of (stack a.1.2)), h.next, h.next + 1), a.2)
  else do
    let _ ← HPy.lift h (mtdCheckInitOrderWeights (args.deref h).orderWeights p)
    let _ ← HPy.lift h (mtdCheckInitTransitionMatrices (args.deref h).transitionMatrices p k)
    pure ((h, argAddr args.orderWeights, argAddr (args.transitionMatrices.map Ref3.addr)), g)

/-- The starting point chosen by `_mtd_convex_coding`, src/reor/mtd_convex_coding.py
lines 780-819: the caller's arrays, or new ones. -/
def hMtdStart (env : Env K) (h : Heap K) {T D : ℕ} (data : Matrix (Fin T) (Fin D) K) (k p : ℕ)
    (init : Option String) (args : MTDHArgs) (fl : MTDFlags) (kw : InitKwargs) (g : env.rng.G) :
    HPy K ((Heap K × MTDStartRefs) × env.rng.G) :=
  if init = some "custom" then do
    let _ ← HPy.lift h (mtdCheckInitWeights (args.deref h).weights T k)
    let _ ← HPy.lift h (mtdCheckInitDictionary (args.deref h).dictionary k D)
    let _ ← HPy.lift h (mtdCheckInitOrderWeights (args.deref h).orderWeights p)
    let _ ← HPy.lift h (mtdCheckInitTransitionMatrices (args.deref h).transitionMatrices p k)
    pure ((h, ⟨argAddr args.dictionary, argAddr args.weights, argAddr args.orderWeights,
      argAddr (args.transitionMatrices.map Ref3.addr)⟩), g)
  else do
    let d ← hMtdStartDictionary env h data k init args fl kw g
    let w ← hMtdStartWeights env d.1.1 T k init args fl kw d.2
    let a ← hMtdStartParameters env w.1.1 k p init args fl kw w.2
    pure ((a.1.1, ⟨d.1.2, w.1.2, a.1.2.1, a.1.2.2⟩), a.2)

/-- `self._initialize_workspace()` and `self._iterate(...)`, src/reor/mtd_convex_coding.py
lines 821-832.  For an empty list of lags the exception is raised with the memory as it was before the
copies, which nothing refers to then. -/
def hMtdSolve (T D k : ℕ) {p : ℕ} (c : MTDConfig p K) (require : Bool) (tolerance : K)
    (maxIterations : ℕ) (fl : MTDFlags) (h : Heap K) (data : ℕ) (st : MTDStartRefs) :
    HPy K (IterResult (MTDMem K) K) :=
  if p = 0 then HPy.raise .valueError h
  else
    MTDMem.iterate T D k c require tolerance maxIterations fl.updateDictionary fl.updateWeights
      fl.updateParameters (MTDMem.initializeWorkspace T D k c h data st.weights st.dictionary
        st.orderWeights st.transitionMatrices)

/-- `_mtd_convex_coding`, src/reor/mtd_convex_coding.py lines 758-838. -/
def hMtdConvexCoding (env : Env K) (h : Heap K) {p : ℕ} (obj : MTDHObj env.rng p) (data : ℕ)
    (args : MTDHArgs) (fl : MTDFlags) (kw : InitKwargs) :
    HPy K (Heap K × MTDHObj env.rng p × FitInfo K) := do
  let T := (h.cell data).rows
  let D := (h.cell data).cols
  let obj := { obj with nComponents := defaultComponents obj.nComponents D }
  let q ← HPy.lift h (checkParams obj.nComponents obj.maxIterations obj.tolerance)
  let start ← hMtdStart env h (h.cell data).val q.1 p obj.init args fl kw obj.randomState
  let r ← hMtdSolve T D q.1 obj.config obj.require q.2.2 q.2.1 fl start.1.1 data start.1.2
  let warned := decide (r.nIter = q.2.1 ∧ q.2.2 > 0)
  pure (r.state.heap,
    { obj with
      randomState := start.2
      vars := some
        { T := T, D := D, k := q.1
          Gamma := r.state.addr .Gamma
          S := r.state.addr .S
          orderWeights := r.state.addr .orderWeights
          transitionMatrices := r.state.addr .transitionMatrices } },
    { cost := r.cost, nIter := r.nIter, warned := warned, trace := r.trace })

/-- `fit_transform`, src/reor/mtd_convex_coding.py lines 840-872: `self.dictionary_ = self.S` is a
second name for the dictionary, and `self.Gamma` itself is returned. -/
def hMtdFitTransform (env : Env K) (h : Heap K) {p : ℕ} (obj : MTDHObj env.rng p) (data : ℕ)
    (args : MTDHArgs) (fl : MTDFlags) (kw : InitKwargs) :
    HPy K (Heap K × MTDHObj env.rng p × Option ℕ × FitInfo K) := do
  let r ← hMtdConvexCoding env h obj data args fl kw
  let obj := { r.2.1 with
    nComponents_ := r.2.1.vars.map (fun v => v.k)
    cost_ := some r.2.2.cost
    dictionary_ := r.2.1.vars.map MTDRefs.S
    nIter_ := some r.2.2.nIter }
  pure (r.1, obj, obj.vars.map MTDRefs.Gamma, r.2.2)

/-- The arrays `transform` passes on, src/reor/mtd_convex_coding.py lines 903-907. -/
def MTDHObj.transformArgs {R : Rng K} {p : ℕ} (obj : MTDHObj R p) : MTDHArgs :=
  match obj.vars with
  | none => {}
  | some v =>
    { dictionary := some v.S
      orderWeights := some v.orderWeights
      transitionMatrices := some ⟨v.transitionMatrices, p, v.k, v.k⟩ }

/-- `transform`, src/reor/mtd_convex_coding.py lines 889-911. -/
def hMtdTransform (env : Env K) (h : Heap K) {p : ℕ} (obj : MTDHObj env.rng p) (data : ℕ) :
    HPy K (Heap K × MTDHObj env.rng p × Option ℕ × FitInfo K) := do
  let r ← hMtdConvexCoding env h obj data obj.transformArgs
    { updateDictionary := false, updateWeights := true, updateParameters := false } {}
  pure (r.1, r.2.1, r.2.1.vars.map MTDRefs.Gamma, r.2.2)

end Reor
