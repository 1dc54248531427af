import Verif.Model.MTD

/-!
Model of `src/reor/gpnh_convex_coding_crom.py`: the estimator inherits everything of
`GPNHConvexCoding` and fits the parameters of a mixture transition model to the weights it found.

`T` = n_samples, `k` = n_components, `p` = n_lags.  `lags` is an array of non-negative integers; the
code accepts any array here and negative or fractional lags are outside of the model.  Exceptions do
not carry the partially updated object.
-/

namespace Reor

open scoped BigOperators Matrix

variable {K : Type} [Field K] [LinearOrder K]

/-- What the allocation of the arrays in the constructor rejects,
src/reor/gpnh_convex_coding_crom.py lines 82-85: `np.empty((n_lags, n_components, n_components))`
needs a non-negative integer. -/
def cromCheckConstructor (nComponents : NumArg K) : Py Unit :=
  match nComponents with
  | .int z => if z < 0 then Py.raise .valueError else Py.ok ()
  | _ => Py.raise .typeError

/-- The attributes used while the parameters are fitted, src/reor/gpnh_convex_coding_crom.py
lines 82-125; `Gamma` is left alone. -/
structure CROMState (T k p : ℕ) (K : Type) where
  Gamma : Matrix (Fin T) (Fin k) K
  orderWeights : Fin p → K
  transitionMatrices : Fin p → Matrix (Fin k) (Fin k) K
  Z : Matrix (Fin T) (Fin k) K
  orderWeightsOld : Fin p → K
  gradOrderWeights : Fin p → K
  incrOrderWeights : Fin p → K
  transitionMatricesOld : Fin p → Matrix (Fin k) (Fin k) K
  gradTransitionMatrices : Fin p → Matrix (Fin k) (Fin k) K
  incrTransitionMatrices : Fin p → Matrix (Fin k) (Fin k) K
  alphaParameters : K
  fParametersMem : List K

/-- The attributes of the estimator that the fit of the parameters reads,
src/reor/gpnh_convex_coding_crom.py lines 74-80. -/
structure CROMConfig (p : ℕ) (K : Type) where
  lags : Fin p → ℕ
  ls : LSConfig K

/-- `self.lags.max()`; the maximum of no lags is a ValueError, raised in `cromFitParameters`. -/
def CROMConfig.maxLag {p : ℕ} (c : CROMConfig p K) : ℕ := Finset.univ.sup c.lags

/-- The loop of `_update_predicted_weights`, src/reor/gpnh_convex_coding_crom.py lines 130-138.  Row
`r` of `Z[max_lag:]` is row `max_lag + r` of `Z`, row `r` of `Gamma[max_lag - lag:-lag]` is row
`max_lag - lag + r` of `Gamma`.  For positive lags both slices have the same number of rows; a zero
lag is dealt with in `cromFitParameters`. -/
def cromPredictedWeights {T k p : ℕ} (lags : Fin p → ℕ) (maxLag : ℕ)
    (Gamma : Matrix (Fin T) (Fin k) K) (orderWeights : Fin p → K)
    (transitionMatrices : Fin p → Matrix (Fin k) (Fin k) K) : Matrix (Fin T) (Fin k) K :=
  (List.finRange p).foldl
    (fun Z i => fun t j =>
      if maxLag ≤ t then
        let r := (t : ℕ) - maxLag
        Z t j + orderWeights i *
          ∑ l, rowAt Gamma (maxLag - lags i + r) l * (transitionMatrices i)ᵀ l j
      else Z t j)
    (fun t j => if (t : ℕ) < maxLag then Gamma t j else 0)

namespace CROMState

variable {T k p : ℕ}

/-- `_update_predicted_weights`, src/reor/gpnh_convex_coding_crom.py lines 127-138. -/
def updatePredictedWeights (c : CROMConfig p K) (s : CROMState T k p K) : CROMState T k p K :=
  { s with
    Z := cromPredictedWeights c.lags c.maxLag s.Gamma s.orderWeights s.transitionMatrices }

/-- `_initialize_parameters_workspace`, src/reor/gpnh_convex_coding_crom.py lines 102-125
(uninitialised work arrays are zero here; they are written before they are read). -/
def initializeWorkspace (c : CROMConfig p K) (Gamma : Matrix (Fin T) (Fin k) K)
    (orderWeights : Fin p → K) (transitionMatrices : Fin p → Matrix (Fin k) (Fin k) K) :
    CROMState T k p K :=
  updatePredictedWeights c
    { Gamma := Gamma
      orderWeights := orderWeights
      transitionMatrices := transitionMatrices
      Z := 0
      orderWeightsOld := orderWeights
      gradOrderWeights := 0
      incrOrderWeights := 0
      transitionMatricesOld := transitionMatrices
      gradTransitionMatrices := 0
      incrTransitionMatrices := 0
      alphaParameters := 1
      fParametersMem := List.replicate c.ls.memory 0 }

/-- `1.0 / (self.n_components * (n_samples - max_lag))`, src/reor/gpnh_convex_coding_crom.py
lines 151 and 162.  `max_lag` is a numpy integer, so a zero denominator gives infinity; the callers
check for it. -/
def normalization (c : CROMConfig p K) (_ : CROMState T k p K) : K :=
  1 / ((k : K) * ((T : K) - (c.maxLag : K)))

/-- `_evaluate_fit_residual`, src/reor/gpnh_convex_coding_crom.py lines 140-155. -/
def evaluateFitResidual (c : CROMConfig p K) (s : CROMState T k p K) : K :=
  if k = 1 then 0
  else
    let value : K := 0 + ∑ t : Fin T,
      if c.maxLag ≤ t then ∑ j, (s.Gamma t j - s.Z t j) ^ 2 else 0
    s.normalization c * value

/-- `_update_parameters_gradient`, src/reor/gpnh_convex_coding_crom.py lines 157-177.  Row `r` of
`residual = Gamma[max_lag:] - Z[max_lag:]` belongs to row `r` of `Gamma[max_lag - lag:-lag]`. -/
def updateParametersGradient (c : CROMConfig p K) (s : CROMState T k p K) : CROMState T k p K :=
  let normalization := s.normalization c
  let residual : Matrix (Fin (T - c.maxLag)) (Fin k) K := fun r =>
    rowAt (s.Gamma - s.Z) (c.maxLag + r)
  let lagged (i : Fin p) : Matrix (Fin (T - c.maxLag)) (Fin k) K := fun r =>
    rowAt s.Gamma (c.maxLag - c.lags i + r)
  { s with
    gradOrderWeights := fun i =>
      -2 * normalization * (residual * s.transitionMatrices i * (lagged i)ᵀ).trace
    gradTransitionMatrices := fun i =>
      (-2 * normalization * s.orderWeights i) • (residualᵀ * lagged i) }

/-- Move both parameter arrays, refresh `Z`, evaluate the residual:
src/reor/gpnh_convex_coding_crom.py lines 215-221 (and 200-204 for the full step). -/
def parametersTrial (c : CROMConfig p K) (s : CROMState T k p K) (step : K) :
    CROMState T k p K × K :=
  let s := { s with orderWeights := s.orderWeightsOld + step • s.incrOrderWeights }
  let s := { s with
    transitionMatrices := s.transitionMatricesOld + step • s.incrTransitionMatrices }
  let s := s.updatePredictedWeights c
  (s, s.evaluateFitResidual c)

/-- `_parameters_line_search`, src/reor/gpnh_convex_coding_crom.py lines 179-226. -/
def parametersLineSearch (c : CROMConfig p K) (s : CROMState T k p K) :
    Py (CROMState T k p K × K) := do
  let currentCost := s.evaluateFitResidual c
  let s := { s with orderWeightsOld := s.orderWeights }
  let s := { s with transitionMatricesOld := s.transitionMatrices }
  let incrNorm := vecMulSum s.incrOrderWeights s.gradOrderWeights +
    mulSum3 s.incrTransitionMatrices s.gradTransitionMatrices
  let r ← lineSearch c.ls (parametersTrial c) s.fParametersMem s currentCost incrNorm
  pure ({ r.state with fParametersMem := r.mem }, r.stepSize)

/-- First part of `_update_parameters`, src/reor/gpnh_convex_coding_crom.py lines 231-248. -/
def prepareParameters (c : CROMConfig p K) (s : CROMState T k p K) : CROMState T k p K :=
  let s := s.updatePredictedWeights c
  let s := s.updateParametersGradient c
  let s := { s with incrOrderWeights := s.orderWeights - s.alphaParameters • s.gradOrderWeights }
  let s := { s with
    incrTransitionMatrices := s.transitionMatrices - s.alphaParameters • s.gradTransitionMatrices }
  let s := { s with incrOrderWeights := simplexProjectVector s.incrOrderWeights }
  let s := { s with
    incrTransitionMatrices := fun i => simplexProjectColumns (s.incrTransitionMatrices i) }
  let s := { s with incrOrderWeights := s.incrOrderWeights - s.orderWeights }
  { s with incrTransitionMatrices := s.incrTransitionMatrices - s.transitionMatrices }

/-- The rest of `_update_parameters`, src/reor/gpnh_convex_coding_crom.py lines 250-274. -/
def finishParameters (c : CROMConfig p K) (s : CROMState T k p K) : Py (CROMState T k p K) := do
  let r ← s.parametersLineSearch c
  let s := r.1
  let stepSize := r.2
  let oldGradW := s.gradOrderWeights
  let oldGradA := s.gradTransitionMatrices
  let s := s.updateParametersGradient c
  let deltaW := s.gradOrderWeights - oldGradW
  let deltaA := s.gradTransitionMatrices - oldGradA
  let sksk := stepSize ^ 2 * (vecMulSum s.incrOrderWeights s.incrOrderWeights +
    mulSum3 s.incrTransitionMatrices s.incrTransitionMatrices)
  let beta := stepSize * (vecMulSum s.incrOrderWeights deltaW +
    mulSum3 s.incrTransitionMatrices deltaA)
  pure { s with alphaParameters := nextSpgAlpha beta sksk c.ls.alphaMin c.ls.alphaMax }

/-- `_update_parameters`, src/reor/gpnh_convex_coding_crom.py lines 228-274.  With as many samples as
the largest lag the gradient contains infinity times zero. -/
def updateParameters (c : CROMConfig p K) (s : CROMState T k p K) : Py (CROMState T k p K) :=
  if T = c.maxLag then Py.raise .nonFinite
  else (s.prepareParameters c).finishParameters c

end CROMState

/-- The loop of `_fit_parameters`, src/reor/gpnh_convex_coding_crom.py lines 299-325, after the
workspace has been set up (line 297).  `self.lags.max()` fails for an empty array of lags.  For a zero
lag the slice `Gamma[max_lag - 0:-0]` is empty and cannot be added to `Z[max_lag:]` unless that is
empty as well; the first `_update_predicted_weights` fails. -/
def cromSolve {T k p : ℕ} (c : CROMConfig p K) (require : Bool) (tolerance : K)
    (maxIterations : ℕ) (Gamma : Matrix (Fin T) (Fin k) K) (orderWeights : Fin p → K)
    (transitionMatrices : Fin p → Matrix (Fin k) (Fin k) K) :
    Py (IterResult (CROMState T k p K) K) :=
  if p = 0 then Py.raise .valueError
  else if (∃ i, c.lags i = 0) ∧ c.maxLag < T then Py.raise .valueError
  else if k ≠ 1 ∧ T = c.maxLag then Py.raise .nonFinite
  else
    iterate (fun s => (s, s.evaluateFitResidual c)) require tolerance maxIterations
      [CROMState.updateParameters c]
      (CROMState.initializeWorkspace c Gamma orderWeights transitionMatrices)

/-- `_fit_parameters`, src/reor/gpnh_convex_coding_crom.py lines 276-325: the random start and the
loop.  (The matrices are stored with the dtype of the data; for integer data see `cromFitParametersT` in
Model/DTypes.lean.)  The draws are those of the MTD estimator
(src/reor/mtd_convex_coding.py lines 106-113, textual copy). -/
def cromFitParameters (R : Rng K) {T k p : ℕ} (c : CROMConfig p K) (require : Bool) (tolerance : K)
    (maxIterations : ℕ) (Gamma : Matrix (Fin T) (Fin k) K) (g : R.G) :
    Py (IterResult (CROMState T k p K) K × R.G) := do
  let w ← mtdDrawOrderWeights R p g
  let A ← mtdDrawTransitionMatrices R k p w.2
  let r ← cromSolve c require tolerance maxIterations Gamma w.1 A.1
  pure (r, A.2)

/-- The fitted parameters. -/
structure CROMVars (p : ℕ) (K : Type) where
  k : ℕ
  orderWeights : Fin p → K
  transitionMatrices : Fin p → Matrix (Fin k) (Fin k) K

/-- A `GPNHConvexCodingCROM` object with `p` lags, src/reor/gpnh_convex_coding_crom.py lines 74-100.
`vars = none` before the first fit (the arrays are then uninitialised). -/
structure CROMObj (R : Rng K) (p : ℕ) where
  base : GPNHObj R
  lags : Fin p → ℕ
  vars : Option (CROMVars p K) := none

/-- What the fit of the parameters reads of the object. -/
def CROMObj.config {R : Rng K} {p : ℕ} (obj : CROMObj R p) : CROMConfig p K :=
  ⟨obj.lags, obj.base.ls⟩

/-- `fit_transform`, src/reor/gpnh_convex_coding_crom.py lines 327-352; `fit` (lines 354-367) is the
same without the return value.  `super().fit_transform` has just accepted the three settings, so the
call of `checkParams` here only reads them.  `G.cols` is `self.n_components`.  Besides the object and
the weights the two reports are returned: that of the coding and the outcome of the loop. -/
def cromFitTransform (env : Env K) {p : ℕ} (obj : CROMObj env.rng p) (data : Arr2 K)
    (dictionary weights : Option (Arr2 K)) (kw : InitKwargs)
    (updateDictionary updateWeights : Bool := true) :
    Py (CROMObj env.rng p × Option (Arr2 K) × FitInfo K) := do
  let r ← gpnhFitTransform env obj.base data dictionary weights kw updateDictionary updateWeights
  let q ← checkParams r.1.nComponents r.1.maxIterations r.1.tolerance
  match r.1.Gamma with
  | none => Py.raise .typeError
  | some G => do
    let f ← cromFitParameters env.rng obj.config r.1.require q.2.2 q.2.1 G.val r.1.randomState
    pure ({ base := { r.1 with randomState := f.2 }
            lags := obj.lags
            vars := some
              { k := G.cols
                orderWeights := f.1.state.orderWeights
                transitionMatrices := f.1.state.transitionMatrices } },
      some G, r.2.2)

/-- `transform`, inherited: src/reor/gpnh_convex_coding.py lines 661-680.  The parameters are not
touched. -/
def cromTransform (env : Env K) {p : ℕ} (obj : CROMObj env.rng p) (data : Arr2 K) :
    Py (CROMObj env.rng p × Option (Arr2 K) × FitInfo K) := do
  let r ← gpnhTransform env obj.base data
  pure ({ obj with base := r.1 }, r.2)

/-- The weights given to `inverse_transform`, src/reor/gpnh_convex_coding_crom.py lines 389-424, row
by row; `none` is a row of NaN.  `predict_next_step_weights` and the loops are textual copies of
src/reor/mtd_convex_coding.py lines 932-964. -/
def cromForecastWeights {T k p : ℕ} (lags : Fin p → ℕ) (orderWeights : Fin p → K)
    (transitionMatrices : Fin p → Matrix (Fin k) (Fin k) K) (W : Matrix (Fin T) (Fin k) K)
    (horizon : ℤ) : Fin T → Option (Fin k → K) :=
  if horizon = 0 then fun t => some (W t)
  else fun t => mtdForecastRow lags orderWeights transitionMatrices W horizon t

/-- `inverse_transform` of weights some rows of which may be NaN:
src/reor/gpnh_convex_coding.py lines 682-696. -/
def cromInverseTransform {T k : ℕ} (S : Option (Arr2 K)) (W : Fin T → Option (Fin k → K)) :
    Py (NanRows K) :=
  match S with
  | none => Py.raise .typeError
  | some S =>
    if h : S.rows = k then Py.ok (dotRows W (S.cast h rfl))
    else Py.raise .valueError

/-- The part of `predict` after `transform`, src/reor/gpnh_convex_coding_crom.py lines 389-426.  The
transition matrices of a fitted object have `n_components` columns, as the weights do.
`self.lags.max()` (line 413) fails for an empty array of lags. -/
def cromForecast {p : ℕ} (lags : Fin p → ℕ) (vars : Option (CROMVars p K)) (S : Option (Arr2 K))
    (G : Arr2 K) (horizon : ℤ) : Py (NanRows K) :=
  match vars with
  | none => Py.raise .valueError
  | some v =>
    if horizon ≠ 0 ∧ p = 0 then Py.raise .valueError
    else if h : G.cols = v.k then
      cromInverseTransform S
        (cromForecastWeights lags v.orderWeights v.transitionMatrices (G.cast rfl h) horizon)
    else Py.raise .valueError

/-- `predict`, src/reor/gpnh_convex_coding_crom.py lines 369-426. -/
def cromPredict (env : Env K) {p : ℕ} (obj : CROMObj env.rng p) (data : Arr2 K) (horizon : ℤ) :
    Py (CROMObj env.rng p × NanRows K) := do
  let r ← cromTransform env obj data
  match r.2.1 with
  | none => Py.raise .typeError
  | some G => do
    let f ← cromForecast obj.lags obj.vars r.1.base.S G horizon
    pure (r.1, f)

end Reor
