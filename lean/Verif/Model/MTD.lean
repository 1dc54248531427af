import Verif.Model.GPNH

/-!
Model of `src/reor/mtd_convex_coding.py`.

`T` = n_samples, `D` = n_features, `k` = n_components, `p` = n_lags.  Methods that are textual
copies of methods of `GPNHConvexCoding` act on the part of the state shared with it
(`MTDState.toGPNHState`) and are modelled by the same definitions; the line numbers of both copies
are given.  Exceptions do not carry the partially updated object.
-/

namespace Reor

open scoped BigOperators Matrix

variable {K : Type} [Field K] [LinearOrder K]

/-! ### Arguments -/

/-- A one-dimensional numpy array. -/
structure Arr1 (K : Type) where
  size : ℕ
  val : Fin size → K

/-- A vector as a run-time array. -/
def Arr1.of {n : ℕ} (v : Fin n → K) : Arr1 K := ⟨n, v⟩

/-- A three-dimensional numpy array, seen as a sequence of matrices. -/
structure Arr3 (K : Type) where
  size : ℕ
  rows : ℕ
  cols : ℕ
  val : Fin size → Matrix (Fin rows) (Fin cols) K

/-- A sequence of matrices as a run-time array. -/
def Arr3.of {p m n : ℕ} (A : Fin p → Matrix (Fin m) (Fin n) K) : Arr3 K := ⟨p, m, n, A⟩

/-- One entry of the `lags` argument, src/reor/mtd_convex_coding.py lines 200-203. -/
def mtdCheckLag (lag : NumArg K) : Py ℕ :=
  match lag with
  | .int z => if z < 1 then Py.raise .valueError else Py.ok z.toNat
  | _ => Py.raise .valueError

/-- The loop over the `lags` argument, src/reor/mtd_convex_coding.py lines 200-204. -/
def mtdCheckLags : List (NumArg K) → Py (List ℕ)
  | [] => Py.ok []
  | lag :: lags => do
    let l ← mtdCheckLag lag
    let ls ← mtdCheckLags lags
    pure (l :: ls)

/-- `self.lags`, src/reor/mtd_convex_coding.py lines 199-206. -/
def mtdLags (lags : Option (List (NumArg K))) : Py (List ℕ) :=
  match lags with
  | none => Py.ok [1]
  | some lags => mtdCheckLags lags

/-! ### Initialisation -/

/-- `_check_init_weights`, src/reor/mtd_convex_coding.py lines 29-32 (textual copy of
`gpnhCheckInitWeights`). -/
def mtdCheckInitWeights (weights : Option (Arr2 K)) (m n : ℕ) : Py (Matrix (Fin m) (Fin n) K) :=
  gpnhCheckInitWeights weights m n

/-- `_check_init_dictionary`, src/reor/mtd_convex_coding.py lines 35-37 (textual copy of
`gpnhCheckInitDictionary`). -/
def mtdCheckInitDictionary (dictionary : Option (Arr2 K)) (m n : ℕ) :
    Py (Matrix (Fin m) (Fin n) K) := gpnhCheckInitDictionary dictionary m n

/-- `_check_init_order_weights`, src/reor/mtd_convex_coding.py lines 40-42.  There is no
`check_array`: `None` has no attribute `shape`. -/
def mtdCheckInitOrderWeights (orderWeights : Option (Arr1 K)) (p : ℕ) : Py (Fin p → K) :=
  match orderWeights with
  | none => Py.raise .attributeError
  | some w =>
    if h : w.size = p then
      if iscloseOne (∑ i, w.val i) then Py.ok (fun i => w.val (Fin.cast h.symm i))
      else Py.raise .valueError
    else Py.raise .valueError

/-- `_check_init_transition_matrices`, src/reor/mtd_convex_coding.py lines 45-47.  `axis=1` of the
three-dimensional array is the row index of each matrix, so the column sums are checked. -/
def mtdCheckInitTransitionMatrices (transitionMatrices : Option (Arr3 K)) (p k : ℕ) :
    Py (Fin p → Matrix (Fin k) (Fin k) K) :=
  match transitionMatrices with
  | none => Py.raise .attributeError
  | some A =>
    if h : A.size = p ∧ A.rows = k ∧ A.cols = k then
      if ∀ i j, iscloseOne (∑ l, A.val i l j) then
        Py.ok (fun i l j =>
          A.val (Fin.cast h.1.symm i) (Fin.cast h.2.1.symm l) (Fin.cast h.2.2.symm j))
      else Py.raise .valueError
    else Py.raise .valueError

/-- `_initialize_mtd_convex_coding_dictionary` with its two methods,
src/reor/mtd_convex_coding.py lines 50-90 and 118-139 (textual copy of `gpnhInitDictionary`). -/
def mtdInitDictionary (env : Env K) {T D : ℕ} (data : Matrix (Fin T) (Fin D) K) (k : ℕ)
    (init : Option String) (kw : InitKwargs) (g : env.rng.G) :
    Py (Matrix (Fin k) (Fin D) K × env.rng.G) := gpnhInitDictionary env data k init kw g

/-- `_initialize_mtd_convex_coding_weights`, src/reor/mtd_convex_coding.py lines 93-99 and 142-153
(textual copy of `gpnhInitWeights`; any extra keyword is a TypeError). -/
def mtdInitWeights (env : Env K) (T k : ℕ) (init : Option String) (kw : InitKwargs)
    (g : env.rng.G) : Py (Matrix (Fin T) (Fin k) K × env.rng.G) := gpnhInitWeights env T k init kw g

/-- The loop `for p in range(order): transition_matrices[p] = left_stochastic_matrix(...)`,
src/reor/mtd_convex_coding.py lines 111-113. -/
def mtdDrawTransitionMatrices (R : Rng K) (k : ℕ) :
    (p : ℕ) → R.G → Py ((Fin p → Matrix (Fin k) (Fin k) K) × R.G)
  | 0, g => Py.ok (Fin.elim0, g)
  | p + 1, g => do
    let A ← leftStochasticMatrix R k k g
    let rest ← mtdDrawTransitionMatrices R k p A.2
    pure (Fin.cons A.1 rest.1, rest.2)

/-- `order_weights = rng.uniform(size=(order,)); order_weights /= order_weights.sum()`,
src/reor/mtd_convex_coding.py lines 106-107.  The draw is written as a `1 × order` array; numpy takes
the same numbers from the generator for both shapes. -/
def mtdDrawOrderWeights (R : Rng K) (p : ℕ) (g : R.G) : Py ((Fin p → K) × R.G) :=
  let d := R.uniform 1 p g
  let total := ∑ i, d.1 0 i
  if p ≠ 0 ∧ total = 0 then Py.raise .nonFinite
  else Py.ok (fun i => d.1 0 i / total, d.2)

/-- `_initialize_mtd_convex_coding_parameters_random`, src/reor/mtd_convex_coding.py lines 102-115.
(The matrices are stored with the dtype of the data; the model has exact numbers only; the
truncation that happens for integer data is in `mtdStartT`, Model/DTypes.lean.) -/
def mtdInitParametersRandom (R : Rng K) (k p : ℕ) (g : R.G) :
    Py (((Fin p → K) × (Fin p → Matrix (Fin k) (Fin k) K)) × R.G) := do
  let w ← mtdDrawOrderWeights R p g
  let A ← mtdDrawTransitionMatrices R k p w.2
  pure ((w.1, A.1), A.2)

/-- `_initialize_mtd_convex_coding_parameters`, src/reor/mtd_convex_coding.py lines 156-168; no extra
keyword is accepted. -/
def mtdInitParameters (env : Env K) (k p : ℕ) (init : Option String) (kw : InitKwargs)
    (g : env.rng.G) : Py (((Fin p → K) × (Fin p → Matrix (Fin k) (Fin k) K)) × env.rng.G) :=
  if kw.nonempty then Py.raise .typeError
  else
    let init := init.getD "random"
    if init = "furthest_sum" ∨ init = "random" then mtdInitParametersRandom env.rng k p g
    else Py.raise .valueError

/-! ### The solver state -/

/-- The attributes of the estimator that the solver reads, src/reor/mtd_convex_coding.py
lines 199-223. -/
structure MTDConfig (p : ℕ) (K : Type) where
  lags : Fin p → ℕ
  epsilonStates : K
  epsilonWeights : K
  ls : LSConfig K

/-- `self.lags.max()`; the maximum of no lags is a ValueError, raised in `mtdSolve`. -/
def MTDConfig.maxLag {p : ℕ} (c : MTDConfig p K) : ℕ := Finset.univ.sup c.lags

/-- The numerical attributes of an `MTDConvexCoding` object during a fit,
src/reor/mtd_convex_coding.py lines 227-268: those of `GPNHConvexCoding` and the ones below.
(`trace_XtX` is written but never read.) -/
structure MTDState (T D k p : ℕ) (K : Type) extends GPNHState T D k K where
  orderWeights : Fin p → K
  transitionMatrices : Fin p → Matrix (Fin k) (Fin k) K
  Z : Matrix (Fin T) (Fin k) K
  orderWeightsOld : Fin p → K
  gradOrderWeights : Fin p → K
  incrOrderWeights : Fin p → K
  transitionMatricesOld : Fin p → Matrix (Fin k) (Fin k) K
  gradTransitionMatrices : Fin p → Matrix (Fin k) (Fin k) K
  incrTransitionMatrices : Fin p → Matrix (Fin k) (Fin k) K
  alphaParameters : K
  fParametersMem : List K

/-- `A[r]` for a row that exists; `0` stands for the IndexError case, which is never reached. -/
def rowAt {T k : ℕ} (A : Matrix (Fin T) (Fin k) K) (r : ℕ) : Fin k → K :=
  if h : r < T then fun j => A ⟨r, h⟩ j else fun _ => 0

/-- `(v * w).sum()`. -/
def vecMulSum {n : ℕ} (v w : Fin n → K) : K := ∑ i, v i * w i

/-- `(A * B).sum()` of three-dimensional arrays. -/
def mulSum3 {p m n : ℕ} (A B : Fin p → Matrix (Fin m) (Fin n) K) : K := ∑ i, mulSum (A i) (B i)

/-- The value given to `Z` by `_update_predicted_weights`, src/reor/mtd_convex_coding.py
lines 317-328.  Row `r` of `Z[max_lag:]` is row `max_lag + r` of `Z`, row `r` of
`Gamma[max_lag - lag:-lag]` is row `max_lag - lag + r` of `Gamma`; both slices have
`T - max_lag` rows (none if `T < max_lag`). -/
def mtdPredictedWeights {T k p : ℕ} (lags : Fin p → ℕ) (maxLag : ℕ) (Gamma : Matrix (Fin T) (Fin k) K)
    (orderWeights : Fin p → K) (transitionMatrices : Fin p → Matrix (Fin k) (Fin k) K) :
    Matrix (Fin T) (Fin k) K :=
  (List.finRange p).foldl
    (fun Z i => fun t j =>
      if maxLag ≤ t then
        let r := (t : ℕ) - maxLag
        Z t j + orderWeights i *
          ∑ l, rowAt Gamma (maxLag - lags i + r) l * (transitionMatrices i)ᵀ l j
      else Z t j)
    (fun t j => if (t : ℕ) < maxLag then Gamma t j else 0)

namespace MTDState

variable {T D k p : ℕ}

/-- `_update_predicted_weights`, src/reor/mtd_convex_coding.py lines 317-328. -/
def updatePredictedWeights (c : MTDConfig p K) (s : MTDState T D k p K) : MTDState T D k p K :=
  { s with
    Z := mtdPredictedWeights c.lags c.maxLag s.Gamma s.orderWeights s.transitionMatrices }

/-- `_initialize_workspace`, src/reor/mtd_convex_coding.py lines 270-315 (uninitialised work arrays
are zero here; they are written before they are read). -/
def initializeWorkspace (c : MTDConfig p K) (X : Matrix (Fin T) (Fin D) K)
    (Gamma : Matrix (Fin T) (Fin k) K) (S : Matrix (Fin k) (Fin D) K) (orderWeights : Fin p → K)
    (transitionMatrices : Fin p → Matrix (Fin k) (Fin k) K) : MTDState T D k p K :=
  updatePredictedWeights c
    { GPNHState.initializeWorkspace c.ls X Gamma S with
      orderWeights := orderWeights
      transitionMatrices := transitionMatrices
      Z := 0
      orderWeightsOld := orderWeights
      gradOrderWeights := 0
      incrOrderWeights := 0
      transitionMatricesOld := transitionMatrices
      gradTransitionMatrices := 0
      incrTransitionMatrices := 0
      alphaParameters := 1
      fParametersMem := List.replicate c.ls.memory 0 }

/-- `1.0 / (self.n_components * (n_samples - max_lag))`, e.g. src/reor/mtd_convex_coding.py
line 359.  `max_lag` is a numpy integer, so a zero denominator gives infinity; the callers check for
it. -/
def weightsNormalization (c : MTDConfig p K) (_ : MTDState T D k p K) : K :=
  1 / ((k : K) * ((T : K) - (c.maxLag : K)))

/-- `_evaluate_weights_penalty`, src/reor/mtd_convex_coding.py lines 348-363. -/
def evaluateWeightsPenalty (c : MTDConfig p K) (s : MTDState T D k p K) : K :=
  if k = 1 then 0
  else
    let normalization := s.weightsNormalization c
    let value : K := 0 + ∑ t : Fin T,
      if c.maxLag ≤ t then ∑ j, (s.Gamma t j - s.Z t j) ^ 2 else 0
    c.epsilonWeights * normalization * value

/-- `_evaluate_cost`, src/reor/mtd_convex_coding.py lines 375-380; `_evaluate_loss_function`
(lines 365-373) and `_evaluate_dictionary_penalty` (lines 330-346) are textual copies. -/
def evaluateCost (c : MTDConfig p K) (s : MTDState T D k p K) : K :=
  s.evaluateLossFunction + s.evaluateDictionaryPenalty c.epsilonStates + s.evaluateWeightsPenalty c

/-- `_update_dictionary_gradient` with `_dictionary_penalty_gradient`,
src/reor/mtd_convex_coding.py lines 382-407 (textual copies). -/
def updateDictionaryGradient (c : MTDConfig p K) (s : MTDState T D k p K) : MTDState T D k p K :=
  { s with toGPNHState := s.toGPNHState.updateDictionaryGradient c.epsilonStates }

/-- Move to `S_old + step * incr_S`, refresh `SSt`, evaluate the cost:
src/reor/mtd_convex_coding.py lines 440-443 (and 427-430 for the full step). -/
def dictionaryTrial (c : MTDConfig p K) (s : MTDState T D k p K) (step : K) :
    MTDState T D k p K × K :=
  let s := { s with S := s.SOld + step • s.incrS }
  let s := { s with SSt := s.S * s.Sᵀ }
  (s, s.evaluateCost c)

/-- `_dictionary_line_search`, src/reor/mtd_convex_coding.py lines 409-448. -/
def dictionaryLineSearch (c : MTDConfig p K) (s : MTDState T D k p K) :
    Py (MTDState T D k p K × K) := do
  let currentCost := s.evaluateCost c
  let s := { s with SOld := s.S }
  let incrNorm := mulSum s.incrS s.gradS
  let r ← lineSearch c.ls (dictionaryTrial c) s.fSMem s currentCost incrNorm
  pure ({ r.state with fSMem := r.mem }, r.stepSize)

/-- First part of `_update_dictionary`, src/reor/mtd_convex_coding.py lines 453-460 (textual
copy). -/
def prepareDictionary (c : MTDConfig p K) (s : MTDState T D k p K) : MTDState T D k p K :=
  { s with toGPNHState := s.toGPNHState.prepareDictionary c.epsilonStates }

/-- `_update_dictionary`, src/reor/mtd_convex_coding.py lines 450-478. -/
def updateDictionary (c : MTDConfig p K) (s : MTDState T D k p K) :
    Py (MTDState T D k p K) := do
  let s := s.prepareDictionary c
  let r ← s.dictionaryLineSearch c
  let s := r.1
  let stepSize := r.2
  let oldGrad := s.gradS
  let s := s.updateDictionaryGradient c
  let deltaGrad := s.gradS - oldGrad
  let sksk := stepSize ^ 2 * mulSum s.incrS s.incrS
  let beta := stepSize * mulSum s.incrS deltaGrad
  pure { s with alphaS := nextSpgAlpha beta sksk c.ls.alphaMin c.ls.alphaMax }

/-- `_weights_penalty_gradient`, src/reor/mtd_convex_coding.py lines 480-499.  Row `r` of
`residual[lag:]` is row `lag + r` of `residual`; `grad_Gamma[:-lag]` has `T - lag` rows (none if
`T < lag`). -/
def weightsPenaltyGradient (c : MTDConfig p K) (s : MTDState T D k p K) : MTDState T D k p K :=
  let normalization := s.weightsNormalization c
  let residual := s.Gamma - s.Z
  let grad : Matrix (Fin T) (Fin k) K := (List.finRange p).foldl
    (fun G i => fun t j =>
      if (t : ℕ) < T - c.lags i then
        G t j + -2 * c.epsilonWeights * normalization * s.orderWeights i *
          ∑ l, rowAt residual (c.lags i + t) l * s.transitionMatrices i l j
      else G t j) 0
  { s with
    gradGamma := fun t j =>
      if c.maxLag ≤ t then
        grad t j + 2 * c.epsilonWeights * normalization * (s.Gamma t j - s.Z t j)
      else grad t j }

/-- `_update_weights_gradient`, src/reor/mtd_convex_coding.py lines 501-510. -/
def updateWeightsGradient (c : MTDConfig p K) (s : MTDState T D k p K) : MTDState T D k p K :=
  let s := s.weightsPenaltyGradient c
  let normalization : K := 1 / ((D : K) * (T : K))
  let s := { s with gradGamma := s.gradGamma + (-2 * normalization) • s.XSt }
  { s with gradGamma := s.gradGamma + (2 * normalization) • (s.Gamma * s.SSt) }

/-- Move to `Gamma_old + step * incr_Gamma`, refresh `Z`, evaluate the cost:
src/reor/mtd_convex_coding.py lines 543-546 (and 530-533 for the full step). -/
def weightsTrial (c : MTDConfig p K) (s : MTDState T D k p K) (step : K) :
    MTDState T D k p K × K :=
  let s := { s with Gamma := s.GammaOld + step • s.incrGamma }
  let s := s.updatePredictedWeights c
  (s, s.evaluateCost c)

/-- `_weights_line_search`, src/reor/mtd_convex_coding.py lines 512-551. -/
def weightsLineSearch (c : MTDConfig p K) (s : MTDState T D k p K) :
    Py (MTDState T D k p K × K) := do
  let currentCost := s.evaluateCost c
  let s := { s with GammaOld := s.Gamma }
  let incrNorm := mulSum s.incrGamma s.gradGamma
  let r ← lineSearch c.ls (weightsTrial c) s.fGammaMem s currentCost incrNorm
  pure ({ r.state with fGammaMem := r.mem }, r.stepSize)

/-- First part of `_update_weights`, src/reor/mtd_convex_coding.py lines 556-563. -/
def prepareWeights (c : MTDConfig p K) (s : MTDState T D k p K) : MTDState T D k p K :=
  let s := { s with SSt := s.S * s.Sᵀ }
  let s := { s with XSt := s.X * s.Sᵀ }
  let s := s.updateWeightsGradient c
  let s := { s with incrGamma := s.Gamma - s.alphaGamma • s.gradGamma }
  let s := { s with incrGamma := simplexProjectRows s.incrGamma }
  { s with incrGamma := s.incrGamma - s.Gamma }

/-- The rest of `_update_weights`, src/reor/mtd_convex_coding.py lines 565-581. -/
def finishWeights (c : MTDConfig p K) (s : MTDState T D k p K) : Py (MTDState T D k p K) := do
  let r ← s.weightsLineSearch c
  let s := r.1
  let stepSize := r.2
  let oldGrad := s.gradGamma
  let s := s.updateWeightsGradient c
  let deltaGrad := s.gradGamma - oldGrad
  let sksk := stepSize ^ 2 * mulSum s.incrGamma s.incrGamma
  let beta := stepSize * mulSum s.incrGamma deltaGrad
  pure { s with alphaGamma := nextSpgAlpha beta sksk c.ls.alphaMin c.ls.alphaMax }

/-- `_update_weights`, src/reor/mtd_convex_coding.py lines 553-581.  With as many samples as the
largest lag the gradient contains infinity times zero. -/
def updateWeights (c : MTDConfig p K) (s : MTDState T D k p K) : Py (MTDState T D k p K) :=
  if T = c.maxLag then Py.raise .nonFinite
  else (s.prepareWeights c).finishWeights c

/-- `_update_parameters_gradient`, src/reor/mtd_convex_coding.py lines 583-603.  Row `r` of
`residual = Gamma[max_lag:] - Z[max_lag:]` belongs to row `r` of `Gamma[max_lag - lag:-lag]`. -/
def updateParametersGradient (c : MTDConfig p K) (s : MTDState T D k p K) : MTDState T D k p K :=
  let normalization := s.weightsNormalization c
  let residual : Matrix (Fin (T - c.maxLag)) (Fin k) K := fun r =>
    rowAt (s.Gamma - s.Z) (c.maxLag + r)
  let lagged (i : Fin p) : Matrix (Fin (T - c.maxLag)) (Fin k) K := fun r =>
    rowAt s.Gamma (c.maxLag - c.lags i + r)
  { s with
    gradOrderWeights := fun i =>
      -2 * c.epsilonWeights * normalization *
        (residual * s.transitionMatrices i * (lagged i)ᵀ).trace
    gradTransitionMatrices := fun i =>
      (-2 * c.epsilonWeights * normalization * s.orderWeights i) • (residualᵀ * lagged i) }

/-- Move both parameter arrays, refresh `Z`, evaluate the cost: src/reor/mtd_convex_coding.py
lines 641-647 (and 626-630 for the full step). -/
def parametersTrial (c : MTDConfig p K) (s : MTDState T D k p K) (step : K) :
    MTDState T D k p K × K :=
  let s := { s with orderWeights := s.orderWeightsOld + step • s.incrOrderWeights }
  let s := { s with
    transitionMatrices := s.transitionMatricesOld + step • s.incrTransitionMatrices }
  let s := s.updatePredictedWeights c
  (s, s.evaluateCost c)

/-- `_parameters_line_search`, src/reor/mtd_convex_coding.py lines 605-652. -/
def parametersLineSearch (c : MTDConfig p K) (s : MTDState T D k p K) :
    Py (MTDState T D k p K × K) := do
  let currentCost := s.evaluateCost c
  let s := { s with orderWeightsOld := s.orderWeights }
  let s := { s with transitionMatricesOld := s.transitionMatrices }
  let incrNorm := vecMulSum s.incrOrderWeights s.gradOrderWeights +
    mulSum3 s.incrTransitionMatrices s.gradTransitionMatrices
  let r ← lineSearch c.ls (parametersTrial c) s.fParametersMem s currentCost incrNorm
  pure ({ r.state with fParametersMem := r.mem }, r.stepSize)

/-- First part of `_update_parameters`, src/reor/mtd_convex_coding.py lines 657-674. -/
def prepareParameters (c : MTDConfig p K) (s : MTDState T D k p K) : MTDState T D k p K :=
  let s := s.updatePredictedWeights c
  let s := s.updateParametersGradient c
  let s := { s with incrOrderWeights := s.orderWeights - s.alphaParameters • s.gradOrderWeights }
  let s := { s with
    incrTransitionMatrices := s.transitionMatrices - s.alphaParameters • s.gradTransitionMatrices }
  let s := { s with incrOrderWeights := simplexProjectVector s.incrOrderWeights }
  let s := { s with
    incrTransitionMatrices := fun i => simplexProjectColumns (s.incrTransitionMatrices i) }
  let s := { s with incrOrderWeights := s.incrOrderWeights - s.orderWeights }
  { s with incrTransitionMatrices := s.incrTransitionMatrices - s.transitionMatrices }

/-- The rest of `_update_parameters`, src/reor/mtd_convex_coding.py lines 676-700. -/
def finishParameters (c : MTDConfig p K) (s : MTDState T D k p K) : Py (MTDState T D k p K) := do
  let r ← s.parametersLineSearch c
  let s := r.1
  let stepSize := r.2
  let oldGradW := s.gradOrderWeights
  let oldGradA := s.gradTransitionMatrices
  let s := s.updateParametersGradient c
  let deltaW := s.gradOrderWeights - oldGradW
  let deltaA := s.gradTransitionMatrices - oldGradA
  let sksk := stepSize ^ 2 * (vecMulSum s.incrOrderWeights s.incrOrderWeights +
    mulSum3 s.incrTransitionMatrices s.incrTransitionMatrices)
  let beta := stepSize * (vecMulSum s.incrOrderWeights deltaW +
    mulSum3 s.incrTransitionMatrices deltaA)
  pure { s with alphaParameters := nextSpgAlpha beta sksk c.ls.alphaMin c.ls.alphaMax }

/-- `_update_parameters`, src/reor/mtd_convex_coding.py lines 654-700.  With as many samples as the
largest lag the gradient contains infinity times zero. -/
def updateParameters (c : MTDConfig p K) (s : MTDState T D k p K) : Py (MTDState T D k p K) :=
  if T = c.maxLag then Py.raise .nonFinite
  else (s.prepareParameters c).finishParameters c

end MTDState

/-- `_iterate`, src/reor/mtd_convex_coding.py lines 702-756.  The first evaluation of the cost
divides `1.0` by `n_features * n_samples` (Python integers), and, with more than one component, by
`n_components * (n_samples - max_lag)` (numpy integers). -/
def mtdIterate {T D k p : ℕ} (c : MTDConfig p K) (require : Bool) (tolerance : K)
    (maxIterations : ℕ) (updateDictionary updateWeights updateParameters : Bool)
    (s : MTDState T D k p K) : Py (IterResult (MTDState T D k p K) K) :=
  if D * T = 0 then Py.raise .zeroDivisionError
  else if k ≠ 1 ∧ T = c.maxLag then Py.raise .nonFinite
  else
    iterate (fun s => (s, s.evaluateCost c)) require tolerance maxIterations
      ((if updateDictionary then [MTDState.updateDictionary c] else []) ++
       (if updateWeights then [MTDState.updateWeights c] else []) ++
       (if updateParameters then [MTDState.updateParameters c] else [])) s

/-! ### The estimator -/

/-- The attributes `Gamma`, `S`, `order_weights` and `transition_matrices` of a fitted object; they
are always set together (src/reor/mtd_convex_coding.py lines 821-825). -/
structure MTDVars (p : ℕ) (K : Type) where
  T : ℕ
  D : ℕ
  k : ℕ
  Gamma : Matrix (Fin T) (Fin k) K
  S : Matrix (Fin k) (Fin D) K
  orderWeights : Fin p → K
  transitionMatrices : Fin p → Matrix (Fin k) (Fin k) K

/-- An `MTDConvexCoding` object with `p` lags, src/reor/mtd_convex_coding.py lines 192-268.
`randomState` is the state of the generator object held by the estimator; `vars = none` before the
first fit (`order_weights` is then an uninitialised array, the other attributes are `None`). -/
structure MTDObj (R : Rng K) (p : ℕ) where
  nComponents : NumArg K
  lags : Fin p → ℕ
  epsilonStates : K
  epsilonWeights : K
  init : Option String
  tolerance : NumArg K
  maxIterations : NumArg K
  randomState : R.G
  ls : LSConfig K
  require : Bool
  vars : Option (MTDVars p K) := none
  nComponents_ : Option ℕ := none
  cost_ : Option K := none
  dictionary_ : Option (Arr2 K) := none
  nIter_ : Option ℕ := none

/-- What the solver reads of the object. -/
def MTDObj.config {R : Rng K} {p : ℕ} (obj : MTDObj R p) : MTDConfig p K :=
  ⟨obj.lags, obj.epsilonStates, obj.epsilonWeights, obj.ls⟩

/-- A starting point. -/
abbrev MTDPoint (T D k p : ℕ) (K : Type) : Type :=
  Matrix (Fin k) (Fin D) K × Matrix (Fin T) (Fin k) K × (Fin p → K) ×
    (Fin p → Matrix (Fin k) (Fin k) K)

/-- The caller's optional arrays. -/
structure MTDArgs (K : Type) where
  dictionary : Option (Arr2 K) := none
  weights : Option (Arr2 K) := none
  orderWeights : Option (Arr1 K) := none
  transitionMatrices : Option (Arr3 K) := none

/-- The flags telling which blocks are updated. -/
structure MTDFlags where
  updateDictionary : Bool := true
  updateWeights : Bool := true
  updateParameters : Bool := true

/-- The dictionary of the starting point, src/reor/mtd_convex_coding.py lines 792-798. -/
def mtdStartDictionary (env : Env K) {T D : ℕ} (data : Matrix (Fin T) (Fin D) K) (k : ℕ)
    (init : Option String) (args : MTDArgs K) (fl : MTDFlags) (kw : InitKwargs) (g : env.rng.G) :
    Py (Matrix (Fin k) (Fin D) K × env.rng.G) :=
  if fl.updateDictionary then mtdInitDictionary env data k init kw g
  else do
    let d ← mtdCheckInitDictionary args.dictionary k D
    pure (d, g)

/-- The weights of the starting point, src/reor/mtd_convex_coding.py lines 800-806. -/
def mtdStartWeights (env : Env K) (T k : ℕ) (init : Option String) (args : MTDArgs K)
    (fl : MTDFlags) (kw : InitKwargs) (g : env.rng.G) :
    Py (Matrix (Fin T) (Fin k) K × env.rng.G) :=
  if fl.updateWeights then mtdInitWeights env T k init kw g
  else do
    let w ← mtdCheckInitWeights args.weights T k
    pure (w, g)

/-- The parameters of the starting point, src/reor/mtd_convex_coding.py lines 808-819. -/
def mtdStartParameters (env : Env K) (k p : ℕ) (init : Option String) (args : MTDArgs K)
    (fl : MTDFlags) (kw : InitKwargs) (g : env.rng.G) :
    Py (((Fin p → K) × (Fin p → Matrix (Fin k) (Fin k) K)) × env.rng.G) :=
  if fl.updateParameters then mtdInitParameters env k p init kw g
  else do
    let w ← mtdCheckInitOrderWeights args.orderWeights p
    let A ← mtdCheckInitTransitionMatrices args.transitionMatrices p k
    pure ((w, A), g)

/-- The starting point chosen by `_mtd_convex_coding`, src/reor/mtd_convex_coding.py
lines 780-819.  (`_initialize_mtd_convex_coding`, lines 171-185, which draws the same in the same
order, is not called by anything.) -/
def mtdStart (env : Env K) {T D : ℕ} (data : Matrix (Fin T) (Fin D) K) (k p : ℕ)
    (init : Option String) (args : MTDArgs K) (fl : MTDFlags) (kw : InitKwargs) (g : env.rng.G) :
    Py (MTDPoint T D k p K × env.rng.G) :=
  if init = some "custom" then do
    let w ← mtdCheckInitWeights args.weights T k
    let d ← mtdCheckInitDictionary args.dictionary k D
    let ow ← mtdCheckInitOrderWeights args.orderWeights p
    let A ← mtdCheckInitTransitionMatrices args.transitionMatrices p k
    pure ((d, w, ow, A), g)
  else do
    let d ← mtdStartDictionary env data k init args fl kw g
    let w ← mtdStartWeights env T k init args fl kw d.2
    let a ← mtdStartParameters env k p init args fl kw w.2
    pure ((d.1, w.1, a.1.1, a.1.2), a.2)

/-- `self._initialize_workspace()` and `self._iterate(...)`, src/reor/mtd_convex_coding.py
lines 827-832; `self.lags.max()` fails for an empty list of lags. -/
def mtdSolve {T D k p : ℕ} (c : MTDConfig p K) (require : Bool) (tolerance : K) (maxIterations : ℕ)
    (fl : MTDFlags) (X : Matrix (Fin T) (Fin D) K) (pt : MTDPoint T D k p K) :
    Py (IterResult (MTDState T D k p K) K) :=
  if p = 0 then Py.raise .valueError
  else
    mtdIterate c require tolerance maxIterations fl.updateDictionary fl.updateWeights
      fl.updateParameters (MTDState.initializeWorkspace c X pt.2.1 pt.1 pt.2.2.1 pt.2.2.2)

/-- `_mtd_convex_coding`, src/reor/mtd_convex_coding.py lines 758-838. -/
def mtdConvexCoding (env : Env K) {p : ℕ} (obj : MTDObj env.rng p) (data : Arr2 K)
    (args : MTDArgs K) (fl : MTDFlags) (kw : InitKwargs) :
    Py (MTDObj env.rng p × FitInfo K) := do
  let obj := { obj with nComponents := defaultComponents obj.nComponents data.cols }
  let q ← checkParams obj.nComponents obj.maxIterations obj.tolerance
  let start ← mtdStart env data.val q.1 p obj.init args fl kw obj.randomState
  let r ← mtdSolve obj.config obj.require q.2.2 q.2.1 fl data.val start.1
  let warned := decide (r.nIter = q.2.1 ∧ q.2.2 > 0)
  pure ({ obj with
      randomState := start.2
      vars := some
        { T := data.rows, D := data.cols, k := q.1
          Gamma := r.state.Gamma
          S := r.state.S
          orderWeights := r.state.orderWeights
          transitionMatrices := r.state.transitionMatrices } },
    { cost := r.cost, nIter := r.nIter, warned := warned, trace := r.trace })

/-- `self.Gamma` of a fitted object. -/
def MTDVars.GammaArr {p : ℕ} (v : MTDVars p K) : Arr2 K := Arr2.of v.Gamma

/-- `self.S` of a fitted object. -/
def MTDVars.SArr {p : ℕ} (v : MTDVars p K) : Arr2 K := Arr2.of v.S

/-- `fit_transform`, src/reor/mtd_convex_coding.py lines 840-872; `fit` (lines 874-887) is the same
without the return value. -/
def mtdFitTransform (env : Env K) {p : ℕ} (obj : MTDObj env.rng p) (data : Arr2 K)
    (args : MTDArgs K) (fl : MTDFlags) (kw : InitKwargs) :
    Py (MTDObj env.rng p × Option (Arr2 K) × FitInfo K) := do
  let r ← mtdConvexCoding env obj data args fl kw
  let obj := { r.1 with
    nComponents_ := r.1.vars.map (fun v => v.k)
    cost_ := some r.2.cost
    dictionary_ := r.1.vars.map MTDVars.SArr
    nIter_ := some r.2.nIter }
  pure (obj, obj.vars.map MTDVars.GammaArr, r.2)

/-- The arrays `transform` passes on, src/reor/mtd_convex_coding.py lines 903-907.  Before the first
fit `self.order_weights` is an uninitialised array of the right length; the missing dictionary is
rejected first, so `none` can stand for it. -/
def MTDObj.transformArgs {R : Rng K} {p : ℕ} (obj : MTDObj R p) : MTDArgs K :=
  match obj.vars with
  | none => {}
  | some v =>
    { dictionary := some v.SArr
      orderWeights := some (Arr1.of v.orderWeights)
      transitionMatrices := some (Arr3.of v.transitionMatrices) }

/-- `transform`, src/reor/mtd_convex_coding.py lines 889-911. -/
def mtdTransform (env : Env K) {p : ℕ} (obj : MTDObj env.rng p) (data : Arr2 K) :
    Py (MTDObj env.rng p × Option (Arr2 K) × FitInfo K) := do
  let r ← mtdConvexCoding env obj data obj.transformArgs
    { updateDictionary := false, updateWeights := true, updateParameters := false } {}
  pure (r.1, r.1.vars.map MTDVars.GammaArr, r.2)

/-- `inverse_transform`, src/reor/mtd_convex_coding.py lines 968-982: `weights.dot(self.S)`. -/
def mtdInverseTransform (env : Env K) {p : ℕ} (obj : MTDObj env.rng p) (weights : Arr2 K) :
    Py (Arr2 K) :=
  match obj.vars with
  | none => Py.raise .typeError
  | some v =>
    if h : v.k = weights.cols then
      Py.ok (Arr2.of (weights.val * (v.SArr.cast h rfl)))
    else Py.raise .valueError

/-! ### Forecasts -/

/-- `predict_next_step_weights`, src/reor/mtd_convex_coding.py lines 932-948.  The windows passed to
it have exactly `max_lag` rows, so the branch for shorter ones is not taken. -/
def mtdNextWeights {k p : ℕ} (lags : Fin p → ℕ) (orderWeights : Fin p → K)
    (transitionMatrices : Fin p → Matrix (Fin k) (Fin k) K) (window : List (Fin k → K)) :
    Fin k → K :=
  (List.finRange p).foldl
    (fun acc i => acc + orderWeights i •
      (transitionMatrices i).mulVec (pyGet window (-(lags i : ℤ)) 0)) 0

/-- `np.roll(window, -1, axis=0)`. -/
def rollLeft {α : Type} : List α → List α
  | [] => []
  | a :: l => l ++ [a]

/-- `window[-1] = v`. -/
def setLast {α : Type} (window : List α) (v : α) : List α := window.dropLast ++ [v]

/-- The loop `for lead in range(horizon)`, src/reor/mtd_convex_coding.py lines 959-963. -/
def mtdForecastLoop {k p : ℕ} (lags : Fin p → ℕ) (orderWeights : Fin p → K)
    (transitionMatrices : Fin p → Matrix (Fin k) (Fin k) K) : ℕ → List (Fin k → K) →
    List (Fin k → K)
  | 0, window => window
  | h + 1, window =>
    let next := mtdNextWeights lags orderWeights transitionMatrices window
    mtdForecastLoop lags orderWeights transitionMatrices h (setLast (rollLeft window) next)

/-- Row `i` of `predicted_weights`, src/reor/mtd_convex_coding.py lines 950-964; `none` is a row of
NaN.  The window is `initial_weights[i - max_lag + 1:i + 1]`. -/
def mtdForecastRow {T k p : ℕ} (lags : Fin p → ℕ) (orderWeights : Fin p → K)
    (transitionMatrices : Fin p → Matrix (Fin k) (Fin k) K) (initialWeights : Matrix (Fin T) (Fin k) K)
    (horizon : ℤ) (i : Fin T) : Option (Fin k → K) :=
  let maxLag := Finset.univ.sup lags
  if (i : ℕ) < maxLag - 1 then none
  else
    let window := (List.range maxLag).map fun r => rowAt initialWeights (i + 1 - maxLag + r)
    some (pyGet (mtdForecastLoop lags orderWeights transitionMatrices horizon.toNat window) (-1) 0)

/-- The rows of an array some of whose rows are NaN. -/
structure NanRows (K : Type) where
  rows : ℕ
  cols : ℕ
  val : Fin rows → Option (Fin cols → K)

/-- `weights.dot(self.S)` row by row: a NaN row stays NaN. -/
def dotRows {T k D : ℕ} (W : Fin T → Option (Fin k → K)) (S : Matrix (Fin k) (Fin D) K) :
    NanRows K :=
  ⟨T, D, fun t => (W t).map fun v => Matrix.vecMul v S⟩

/-- The forecast made from the attributes that `transform` has just set,
src/reor/mtd_convex_coding.py lines 929-966.  A negative horizon makes no step. -/
def mtdForecast {p : ℕ} (lags : Fin p → ℕ) (v : MTDVars p K) (horizon : ℤ) : NanRows K :=
  if horizon = 0 then dotRows (fun t => some (v.Gamma t)) v.S
  else dotRows (fun t => mtdForecastRow lags v.orderWeights v.transitionMatrices v.Gamma horizon t)
    v.S

/-- `predict`, src/reor/mtd_convex_coding.py lines 913-966. -/
def mtdPredict (env : Env K) {p : ℕ} (obj : MTDObj env.rng p) (data : Arr2 K) (horizon : ℤ) :
    Py (MTDObj env.rng p × NanRows K) := do
  let r ← mtdTransform env obj data
  match r.1.vars with
  | none => Py.raise .typeError
  | some v => pure (r.1, mtdForecast obj.lags v horizon)

end Reor
