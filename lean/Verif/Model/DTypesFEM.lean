import Mathlib.Algebra.Order.Archimedean.Real.Basic
import Verif.Model.DTypes
import Verif.Model.PWVARX

/-!
The dtypes of the arrays in src/reor/fembv.py, src/reor/fembv_kmeans.py, src/reor/fembv_varx.py and
src/reor/pwvarx.py.  With integer data some of their arrays are integer arrays, and what is assigned
to their elements is truncated; no operation of these files is refused by numpy.  As in
Model/DTypes.lean the numbers are exact before they are truncated.  (In floating point
`np.linalg.norm(x) ** 2` may fall short of an integer, and then one less is stored.)
-/

namespace Reor

open scoped BigOperators

/-! ### FEM-BV-k-means -/

section KMeans

variable {K : Type} [Field K] [LinearOrder K] [FloorRing K]

/-- Assignment of a matrix to an array of the given dtype. -/
def DType.storeMat {m n : ℕ} (t : DType) (A : Matrix (Fin m) (Fin n) K) : Matrix (Fin m) (Fin n) K :=
  fun i j => t.store (A i j)

/-- `_evaluate_distance_matrix`, src/reor/fembv_kmeans.py lines 137-141; the matrix is allocated with
the dtype of the data in lines 150-151. -/
def kmeansDistanceT {T D k : ℕ} (t : DType) (X : Matrix (Fin T) (Fin D) K)
    (Theta : Matrix (Fin k) (Fin D) K) : Matrix (Fin T) (Fin k) K :=
  t.storeMat (kmeansDistance X Theta)

/-- The FEM-BV-k-means component model for data of dtype `t`; the centroids are new arrays in every
update, src/reor/fembv_kmeans.py lines 165-172. -/
def kmeansCompT {T D : ℕ} (t : DType) (k : ℕ) (X : Matrix (Fin T) (Fin D) K) :
    FEMComp (Matrix (Fin k) (Fin D) K) T k K :=
  ⟨kmeansDistanceT t X, kmeansUpdate X⟩

/-- `_fembv_fit` of `FEMBVKMeans`, src/reor/fembv.py lines 306-335, for data of dtype `t`.  (Weights
and centroids given as integer arrays make no difference: they are replaced, not written to.) -/
def femKMeansRunT (R : Rng K) (solver : LPSolver K) (obj : FEMKMeansObj R) (t : DType)
    (data : Arr2 K) (args : FEMArgs K) : Py (FEMKMeansObj R × FEMInfo K) := do
  let obj := { obj with nComponents := defaultComponents obj.nComponents data.cols }
  let p ← checkParams obj.nComponents obj.maxIterations obj.tolerance
  let theta ← kmeansInit R data.val p.1 args.parameters args.init obj.randomState
  let gamma ← femInitWeights R data.rows p.1 args.weights args.init theta.2
  let tv ← maxTvConstraint obj.maxTvNorm
  let con ← femConstraints tv p.1 data.rows
  let comp := kmeansCompT t p.1 data.val
  let s : FEMState _ data.rows p.1 K :=
    { Gamma := gamma.1, params := theta.1, distanceMatrix := comp.distance theta.1 }
  let r ← femIterate comp solver con obj.require p.2.2 p.2.1 args.updateParameters
    args.updateWeights s
  let warned := decide (r.nIter = p.2.1 ∧ p.2.2 > 0)
  pure ({ obj with
      randomState := gamma.2
      Gamma := some (Arr2.of r.state.Gamma)
      Theta := some (Arr2.of r.state.params) },
    { cost := r.cost, nIter := r.nIter, warned := warned, trace := r.trace,
      failures := r.failures })

/-- `transform`, src/reor/fembv.py lines 383-400, for data of dtype `t`. -/
def femKMeansTransformT (R : Rng K) (solver : LPSolver K) (obj : FEMKMeansObj R) (t : DType)
    (data : Arr2 K) : Py (FEMKMeansObj R × Option (Arr2 K) × FEMInfo K) := do
  let r ← femKMeansRunT R solver obj t data { updateParameters := false, updateWeights := true }
  pure (r.1, r.1.Gamma, r.2)

end KMeans

/-! ### FEM-BV-VARX -/

section VARX

variable {D E : ℕ} (m : VARXModel D E)

/-- `self.residuals` after lines 112-113 of src/reor/fembv_varx.py; the array is made with
`np.zeros_like(self._y)` in line 90. -/
noncomputable def VARXModel.residualsT (t : DType) (params : Matrix (Fin m.nCols) (Fin D) ℝ) :
    Matrix (Fin m.n) (Fin D) ℝ :=
  t.storeMat (m.residuals params)

/-- The rows of the residuals past the presample. -/
noncomputable def VARXModel.tailResidualsT (t : DType) (params : Matrix (Fin m.nCols) (Fin D) ℝ) :
    Matrix (Fin (m.n - m.presample)) (Fin D) ℝ :=
  lagRows m.presample (m.residualsT t params) 0

/-- Assembly of the result, src/reor/fembv_varx.py lines 112-149.  The coefficients of the local model
are new arrays. -/
noncomputable def VARXModel.finishT (t : DType) (params : Matrix (Fin m.nCols) (Fin D) ℝ)
    (sigma : Option (Matrix (Fin D) (Fin D) ℝ)) : Py (VARXFit m) := do
  let inv ← npInv sigma
  pure
    { residuals := m.residualsT t params
      mu := m.readMu params
      A := m.readA params
      B := m.readB params
      B0 := m.readB0 params
      sigmaU := sigma
      sigmaUInv := inv }

/-- `fit()`, src/reor/fembv_varx.py lines 92-149. -/
noncomputable def VARXModel.fitPlainT (t : DType) (lstsq : LstSq) : Py (VARXFit m) := do
  let params ← lstsq _ _ _ m.z m.target
  let df : ℝ := (m.n : ℝ) - m.presample - m.p * D - 1 - E * (1 + m.s)
  m.finishT t params (covariance (m.tailResidualsT t params) df)

/-- `fit(weights)` with the right number of weights, src/reor/fembv_varx.py lines 92-149. -/
noncomputable def VARXModel.fitWeightedT (t : DType) (lstsq : LstSq) (weights : Fin m.n → ℝ) :
    Py (VARXFit m) :=
  if ∃ t, m.tailWeights weights t < 0 then Py.raise .nonFinite
  else do
    let w : Fin (m.n - m.presample) → ℝ := fun t => Real.sqrt (m.tailWeights weights t)
    let params ← lstsq _ _ _ (scaleRows w m.z) (scaleRows w m.target)
    let df : ℝ := ∑ t, m.tailWeights weights t - 1
    m.finishT t params (covariance (scaleRows w (m.tailResidualsT t params)) df)

/-- `fit(weights)`, src/reor/fembv_varx.py lines 92-149: the shape of the weights is checked. -/
noncomputable def VARXModel.fitT (t : DType) (lstsq : LstSq) (weights : Option (Σ l : ℕ, Fin l → ℝ)) :
    Py (VARXFit m) :=
  match weights with
  | none => m.fitPlainT t lstsq
  | some w =>
    if h : m.n = w.1 then m.fitWeightedT t lstsq fun t => w.2 (Fin.cast h t)
    else Py.raise .valueError

/-- Weights of component `i`, src/reor/fembv_varx.py lines 355-358: an array of the dtype of the data
is filled with the weights. -/
noncomputable def varxWeightsT {T k : ℕ} (t : DType) (Gamma : Matrix (Fin T) (Fin k) ℝ) (i : Fin k)
    (memory : ℕ) : Σ l : ℕ, Fin l → ℝ :=
  varxWeights (t.storeMat Gamma) i memory

/-- `_update_parameters`, src/reor/fembv_varx.py lines 347-368: the arrays of reported coefficients
have the dtype of the data, lines 320-328. -/
noncomputable def varxUpdateT {T k : ℕ} {models : Fin k → VARXModel D E} {L : ℕ} (t : DType)
    (lstsq : LstSq) (Gamma : Matrix (Fin T) (Fin k) ℝ) (p : VARXParams models L) :
    Py (VARXParams models L) := do
  let fits ← pyPi fun i => (models i).fitT t lstsq (some (varxWeightsT t Gamma i (models i).p))
  pure
    { fits := fits
      mu := fun i d => t.store ((fits i).mu d)
      A := fun i l =>
        if h : (l : ℕ) < (models i).p then t.storeMat ((fits i).A ⟨l, h⟩) else p.A i l
      B0 := fun i => t.storeMat (fits i).B0 }

/-- `_evaluate_distance_matrix`, src/reor/fembv_varx.py lines 287-295; the matrix has the dtype of the
data, lines 341-343. -/
noncomputable def varxDistanceT {k : ℕ} {models : Fin k → VARXModel D E} {L : ℕ} (t : DType) (T : ℕ)
    (p : VARXParams models L) : Matrix (Fin T) (Fin k) ℝ :=
  t.storeMat (varxDistance T p)

/-- The FEM-BV-VARX component model for data of dtype `t`. -/
noncomputable def varxCompT {k : ℕ} (t : DType) (models : Fin k → VARXModel D E) (L T : ℕ)
    (lstsq : LstSq) : FEMComp (VARXParams models L) T k ℝ :=
  ⟨varxDistanceT t T, varxUpdateT t lstsq⟩

/-- External factors written to an array of dtype `t`. -/
noncomputable def storeArr (t : DType) (u : Arr2 ℝ) : Arr2 ℝ := Arr2.of (t.storeMat u.val)

/-- `_initialize_components`, src/reor/fembv_varx.py lines 297-345.  The regressors have the dtype of
the data, lines 72-73, and the external factors `u` are those written to them. -/
noncomputable def varxInitT (t : DType) (mem : Memory) (lstsq : LstSq) {n D k : ℕ}
    (X : Matrix (Fin n) (Fin D) ℝ) (memory : Fin k → ℤ) (L : ℤ) (u : Option (Arr2 ℝ)) :
    Py (VARXStart k D (exogCols u)) := do
  let _ ← varxCheckExog n u
  let models ← varxModels mem X memory L u
  let fits ← pyPi fun i => (models i).fitT t lstsq none
  let _ ← varxCheckShapes models L.toNat (n - L.toNat)
  pure ⟨L.toNat, models, ⟨fits, fun _ _ => 0, fun _ _ _ _ => 0, fun _ _ _ => 0⟩⟩

/-- `_initialize_weights` and `_iterate`, src/reor/fembv.py lines 204-205 and 325-335. -/
noncomputable def femVARXIterateT (R : Rng ℝ) (solver : LPSolver ℝ) (lstsq : LstSq)
    (obj : FEMVARXObj R) (t : DType) (n k : ℕ) (maxIterations : ℕ) (tolerance : ℝ)
    (args : FEMVARXArgs) {D E : ℕ} (start : VARXStart k D E) :
    Py (FEMResult (VARXParams start.models start.L) (n - start.L) k ℝ × R.G) := do
  let gamma ← femInitWeights R (n - start.L) k args.weights args.init obj.randomState
  let tv ← maxTvConstraint obj.maxTvNorm
  let con ← femConstraints tv k (n - start.L)
  let comp := varxCompT t start.models start.L (n - start.L) lstsq
  let r ← femIterate comp solver con obj.require tolerance maxIterations args.updateParameters
    args.updateWeights ⟨gamma.1, start.params, comp.distance start.params⟩
  pure (r, gamma.2)

/-- `_fembv_fit` of `FEMBVVARX`, src/reor/fembv.py lines 306-335, for data of dtype `t`. -/
noncomputable def femVARXRunT (R : Rng ℝ) (solver : LPSolver ℝ) (lstsq : LstSq) (mem : Memory)
    (obj : FEMVARXObj R) (t : DType) (data : Arr2 ℝ) (args : FEMVARXArgs) :
    Py (FEMVARXObj R × FEMInfo ℝ) := do
  let obj := { obj with nComponents := defaultComponents obj.nComponents data.cols }
  let p ← checkParams obj.nComponents obj.maxIterations obj.tolerance
  if h : p.1 = obj.memory.length then do
    let start ← varxInitT t mem lstsq data.val (fun i : Fin p.1 => obj.memory.get (Fin.cast h i))
      (maxMemory obj.memory) (args.externalFactors.map (storeArr t))
    let r ← femVARXIterateT R solver lstsq obj t data.rows p.1 p.2.1 p.2.2 args start
    let warned := decide (r.1.nIter = p.2.1 ∧ p.2.2 > 0)
    pure ({ obj with
        randomState := r.2
        Gamma := some (Arr2.of r.1.state.Gamma)
        mu := some (Arr2.of r.1.state.params.mu)
        A := if start.L > 0 then some ⟨_, _, _, _, r.1.state.params.A⟩ else obj.A
        B0 := if args.externalFactors.isSome then some (Arr3.of r.1.state.params.B0) else obj.B0 },
      { cost := r.1.cost, nIter := r.1.nIter, warned := warned, trace := r.1.trace,
        failures := r.1.failures })
  else Py.raise .indexError

end VARX

/-! ### Piecewise VARX -/

section PWVARX

variable {lib : PWLib} {K m D p s E : ℕ}

/-- One pass of the loop of `_fit_var_model`, src/reor/pwvarx.py lines 134-172; the array of residuals
is made with `np.zeros_like(y)` in line 131, the other arrays are floating point. -/
noncomputable def pwStepT (t : DType) (lstsq : LstSq) (trend : Bool) (y : Matrix (Fin m) (Fin D) ℝ)
    (x : Matrix (Fin m) (Fin (p * D + s * E)) ℝ) (labels : Fin m → ℤ)
    (st : PWState K m D p s E) (k : Fin K) : Py (PWState K m D p s E) := do
  let rows := maskRows labels k
  let Y := takeRows y rows
  let X := pwDesign trend (takeRows x rows)
  let params ← lstsq _ _ _ X Y
  let residuals := putRows st.residuals rows (t.storeMat (Y - X * params))
  let df : ℝ := (rows.length : ℝ) - p * D - trendCols trend - E * s
  pure
    { mu := Function.update st.mu k ((pwReadMu params).getD (st.mu k))
      A := Function.update st.A k (pwReadA params)
      B := Function.update st.B k (pwReadB params)
      sigmaU := Function.update st.sigmaU k (covariance (takeRows residuals rows) df)
      residuals := residuals }

/-- The loop of `_fit_var_model`, src/reor/pwvarx.py line 132. -/
noncomputable def pwLoopT (t : DType) (lstsq : LstSq) (trend : Bool) (y : Matrix (Fin m) (Fin D) ℝ)
    (x : Matrix (Fin m) (Fin (p * D + s * E)) ℝ) (labels : Fin m → ℤ) :
    List (Fin K) → PWState K m D p s E → Py (PWState K m D p s E)
  | [], st => Py.ok st
  | k :: ks, st => do
    let st ← pwStepT t lstsq trend y x labels st k
    pwLoopT t lstsq trend y x labels ks st

/-- `_fit_var_model`, src/reor/pwvarx.py lines 110-172. -/
noncomputable def PWObj.fitVarModelT (t : DType) (lstsq : LstSq) (obj : PWObj lib) {m D E : ℕ}
    (y : Matrix (Fin m) (Fin D) ℝ) (x : Matrix (Fin m) (Fin (obj.p * D + obj.s * E)) ℝ)
    (labels : Fin m → ℤ) : Py (PWObj lib) := do
  let K ← pwSize obj.nComponents
  let st ← pwLoopT t lstsq obj.includeTrend y x labels (List.finRange K)
    ⟨0, fun _ _ => 0, fun _ _ => 0, fun _ => some 0, 0⟩
  pure { obj with
    mu := if obj.includeTrend then some (Arr2.of st.mu) else obj.mu
    A := if obj.p > 0 then some ⟨_, _, _, _, st.A⟩ else obj.A
    B := if obj.s * E > 0 then some ⟨_, _, _, _, st.B⟩ else obj.B
    sigmaU := some ⟨_, _, st.sigmaU⟩
    residuals := some (Arr2.of st.residuals) }

/-- `fit_transform`, src/reor/pwvarx.py lines 174-217, for endogenous variables of dtype `t`.  (The
predictors are always floating point, line 86.) -/
noncomputable def PWObj.fitTransformT (t : DType) (lstsq : LstSq) (obj : PWObj lib) (endog : PWArr)
    (exog : Option PWArr) : Py (PWObj lib × Σ m : ℕ, Fin m → ℤ) := do
  let data := endog.matrix
  let y := lagRows (max obj.p obj.s) data.val 0
  let x ← stackPredictors obj.p obj.s data (exog.map PWArr.matrix)
  let _ ← checkAxes endog
  let r ← obj.classify x y
  let obj' ← PWObj.fitVarModelT t lstsq
    { obj with clusterer := r.1.clusterer, classifier := r.1.classifier,
               clusterLabels_ := r.1.clusterLabels_ } y x r.2
  pure (obj', ⟨_, r.2⟩)

end PWVARX

end Reor
