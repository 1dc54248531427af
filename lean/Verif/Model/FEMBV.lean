import Verif.Model.Validation
import Verif.Model.RandomMatrix
import Verif.Model.GPNH

/-!
Model of `src/reor/fembv.py` (the base class of the FEM-BV methods) and of
`src/reor/fembv_kmeans.py`.  The linear programming solver behind `cvxpy` is a parameter.
-/

namespace Reor

open scoped BigOperators

variable {K : Type} [Field K] [LinearOrder K]

/-! ### Index arrays and sparse matrices -/

/-- `np.arange(a, b)`. -/
def npArange (a b : ℕ) : List ℕ := (List.range (b - a)).map fun i => a + i

/-- `np.repeat(l, c)`. -/
def npRepeat {α : Type} (l : List α) (c : ℕ) : List α := l.flatMap fun x => List.replicate c x

/-- `np.tile(l, c)`. -/
def npTile {α : Type} (l : List α) (c : ℕ) : List α := (List.replicate c l).flatten

/-- The dense form of `csr_matrix((data, (rows, cols)), shape=(m, n))`: entries given more than once
are added up. -/
def cooDense (data : List K) (rows cols : List ℕ) (m n : ℕ) : Matrix (Fin m) (Fin n) K :=
  fun i j => ((List.zip data (List.zip rows cols)).map fun e =>
    if e.2.1 = (i : ℕ) ∧ e.2.2 = (j : ℕ) then e.1 else 0).sum

/-- `csr_matrix((data, (rows, cols)), shape=(m, n))`: the three arrays must have the same length and
the indices must lie within the shape. -/
def csrMatrix (data : List K) (rows cols : List ℕ) (m n : ℕ) : Py (Matrix (Fin m) (Fin n) K) :=
  if data.length = rows.length ∧ rows.length = cols.length ∧ (∀ r ∈ rows, r < m) ∧
      ∀ c ∈ cols, c < n then
    Py.ok (cooDense data rows cols m n)
  else Py.raise .valueError

/-- A one-dimensional array reshaped to `(n,)`. -/
def reshape1 (l : List K) (n : ℕ) : Py (Fin n → K) :=
  if h : l.length = n then Py.ok fun i => l.get (Fin.cast h.symm i) else Py.raise .valueError

/-! ### The linear program for the weights -/

/-- A linear program: minimise `c · v` subject to `Aeq v = beq` and `Aub v <= bub`. -/
structure LP (K : Type) where
  n : ℕ
  mEq : ℕ
  mUb : ℕ
  c : Fin n → K
  Aeq : Matrix (Fin mEq) (Fin n) K
  beq : Fin mEq → K
  Aub : Matrix (Fin mUb) (Fin n) K
  bub : Fin mUb → K

/-- What `problem.solve` can end with: a value for the variable, the status `infeasible` or
`unbounded`, another status without a value, or an exception. -/
inductive LPOutcome (K : Type) (n : ℕ) where
  | value (v : Fin n → K)
  | failed
  | noValue
  | error (e : PyErr)

/-- The solver (with its keyword arguments). -/
abbrev LPSolver (K : Type) : Type := (lp : LP K) → LPOutcome K lp.n

/-- `_has_max_tv_norm_constraint`, src/reor/fembv.py lines 77-78; returns the bound if there is one.
Comparing something that is not a number with 0 is a TypeError. -/
def maxTvConstraint (maxTvNorm : NumArg K) : Py (Option K) :=
  match maxTvNorm with
  | .none => Py.ok none
  | .int z => if z ≥ 0 then Py.ok (some (z : K)) else Py.ok none
  | .real x => if x ≥ 0 then Py.ok (some x) else Py.ok none
  | .other => Py.raise .typeError

/-- Number of auxiliary variables, src/reor/fembv.py lines 84-85. -/
def auxParameters (tv : Option K) (k T : ℕ) : ℕ := if tv.isSome then k * (T - 1) else 0

/-- `_get_number_of_weight_parameters`, src/reor/fembv.py lines 80-87. -/
def weightParameters (tv : Option K) (k T : ℕ) : ℕ := k * T + auxParameters tv k T

/-- `self.A_eq`, `self.b_eq`, `self.A_ub`, `self.b_ub`, for `n` variables. -/
structure FEMConstraints (n : ℕ) (K : Type) where
  mEq : ℕ
  mUb : ℕ
  Aeq : Matrix (Fin mEq) (Fin n) K
  beq : Fin mEq → K
  Aub : Matrix (Fin mUb) (Fin n) K
  bub : Fin mUb → K

/-- `nnz_aux_cols` before tiling, src/reor/fembv.py lines 120-125. -/
def auxCols (k T : ℕ) : List ℕ :=
  (List.range (T - 1)).flatMap fun t => (List.range k).flatMap fun i =>
    [(t + 1) * k + i, t * k + i, k * T + t * k + i]

/-- `nnz_tv_cols`, src/reor/fembv.py lines 145-149. -/
def tvCols (k T : ℕ) : List ℕ :=
  (List.range k).flatMap fun i => (List.range (T - 1)).map fun t => k * T + t * k + i

/-- The inequality constraints, src/reor/fembv.py lines 103-169: number of rows, coefficients, row
and column indices, right-hand side. -/
def ubArrays (tv : Option K) (k T : ℕ) : ℕ × List K × List ℕ × List ℕ × List K :=
  let n := weightParameters tv k T
  let nUb := n
  let coeffs := List.replicate n (-1 : K)
  let rows := npArange 0 n
  let cols := npArange 0 n
  let values := List.replicate n (0 : K)
  match tv with
  | none => (nUb, coeffs, rows, cols, values)
  | some maxTv =>
    let nAux := 2 * k * (T - 1)
    let auxRows := npRepeat (npArange nUb (nUb + nAux)) 3
    let auxCols := npTile (auxCols k T) 2
    let auxCoeffs := npTile [(1 : K), -1, -1] (k * (T - 1)) ++ npTile [(-1 : K), 1, -1] (k * (T - 1))
    let nUb := nUb + nAux
    let values := values ++ List.replicate (2 * k * (T - 1)) (0 : K)
    let tvRows := npRepeat (npArange nUb (nUb + k)) (T - 1)
    let tvCoeffs := List.replicate (k * (T - 1)) (1 : K)
    let nUb := nUb + k
    let values := values ++ List.replicate k maxTv
    (nUb, coeffs ++ auxCoeffs ++ tvCoeffs, rows ++ auxRows ++ tvRows,
      cols ++ auxCols ++ tvCols k T, values)

/-- `_initialize_constraints`, src/reor/fembv.py lines 89-169; with a single component there are
none.  No samples and several components: with a bound on the total variation a negative number of
variables is a ValueError; without, what `cvxpy` does with a program without variables is not
modelled, and stands as a ValueError as well. -/
def femConstraints (tv : Option K) (k T : ℕ) :
    Py (Option (FEMConstraints (weightParameters tv k T) K)) :=
  if k > 1 then
    if T = 0 then Py.raise .valueError
    else do
      let n := weightParameters tv k T
      let Aeq ← csrMatrix (List.replicate (T * k) (1 : K)) (npRepeat (npArange 0 T) k)
        (npArange 0 (T * k)) T n
      let u := ubArrays tv k T
      let Aub ← csrMatrix u.2.1 u.2.2.1 u.2.2.2.1 u.1 n
      let bub ← reshape1 u.2.2.2.2 u.1
      pure (some ⟨T, u.1, Aeq, fun _ => 1, Aub, bub⟩)
  else Py.ok none

/-! ### The iteration -/

/-- Numerical state of a FEM-BV object with `T` samples, `k` components and parameters of type
`P`. (`Eta` is never read and left out.) -/
structure FEMState (P : Type) (T k : ℕ) (K : Type) where
  Gamma : Matrix (Fin T) (Fin k) K
  params : P
  distanceMatrix : Matrix (Fin T) (Fin k) K

/-- What a derived class provides: `_evaluate_distance_matrix` and `_update_parameters`. -/
structure FEMComp (P : Type) (T k : ℕ) (K : Type) where
  distance : P → Matrix (Fin T) (Fin k) K
  update : Matrix (Fin T) (Fin k) K → P → Py P

section Iterate

variable {P : Type} {T k : ℕ}

/-- Row-major position of weight `(t, i)` among the variables of the linear program. -/
theorem weightIndex_lt {t i e : ℕ} (ht : t < T) (hi : i < k) : t * k + i < k * T + e := by
  have : t * k + k ≤ T * k := by
    rw [← Nat.succ_mul]
    exact Nat.mul_le_mul_right k ht
  rw [Nat.mul_comm k T]
  omega

/-- `_evaluate_distance_matrix` on the state. -/
def FEMState.evaluateDistance (comp : FEMComp P T k K) (s : FEMState P T k K) : FEMState P T k K :=
  { s with distanceMatrix := comp.distance s.params }

/-- `_evaluate_cost`, src/reor/fembv.py lines 73-75. -/
def FEMState.evaluateCost (comp : FEMComp P T k K) (s : FEMState P T k K) : FEMState P T k K × K :=
  let s := s.evaluateDistance comp
  (s, mulSum s.Gamma s.distanceMatrix)

/-- The objective vector, src/reor/fembv.py lines 223-224. -/
def lpObjective (e : ℕ) (D : Matrix (Fin T) (Fin k) K) : Fin (k * T + e) → K :=
  fun j =>
    if h : (j : ℕ) < k * T then
      D ⟨j / k, Nat.div_lt_of_lt_mul h⟩
        ⟨j % k, Nat.mod_lt _ (Nat.pos_of_ne_zero fun h0 => by simp [h0] at h)⟩
    else 0

/-- `np.clip(x, 0.0, 1.0)`. -/
def clip01 (x : K) : K := min (max x 0) 1

/-- The weights in the solution, src/reor/fembv.py lines 237-239. -/
def lpWeights {e : ℕ} (v : Fin (k * T + e) → K) : Matrix (Fin T) (Fin k) K :=
  fun t i => clip01 (v ⟨t * k + i, weightIndex_lt t.2 i.2⟩)

/-- The linear program of src/reor/fembv.py lines 219-229. -/
def weightsProgram {e : ℕ} (con : FEMConstraints (k * T + e) K) (D : Matrix (Fin T) (Fin k) K) :
    LP K :=
  ⟨k * T + e, con.mEq, con.mUb, lpObjective e D, con.Aeq, con.beq, con.Aub, con.bub⟩

/-- Use of the solution, src/reor/fembv.py lines 233-244; returns the state and whether the warning
was issued.  Slicing a missing value is a TypeError. -/
def FEMState.useSolution {e : ℕ} (s : FEMState P T k K) :
    LPOutcome K (k * T + e) → Py (FEMState P T k K × Bool)
  | .value v => Py.ok ({ s with Gamma := lpWeights v }, false)
  | .failed => Py.ok (s, true)
  | .noValue => Py.raise .typeError
  | .error e => Py.raise e

/-- `_update_weights`, src/reor/fembv.py lines 207-244.  Constraints that were never set up would be
a TypeError. -/
def FEMState.updateWeights {e : ℕ} (comp : FEMComp P T k K) (solver : LPSolver K)
    (con : Option (FEMConstraints (k * T + e) K)) (s : FEMState P T k K) :
    Py (FEMState P T k K × Bool) :=
  if k = 1 then Py.ok (s, false)
  else
    let s := s.evaluateDistance comp
    match con with
    | none => Py.raise .typeError
    | some con => s.useSolution (solver (weightsProgram con s.distanceMatrix))

/-- `_update_parameters` on the state.  (`FEMBVKMeans` evaluates the distances again at the end;
`FEMBVVARX` leaves that to the evaluation of the cost, which follows at once.) -/
def FEMState.updateParameters (comp : FEMComp P T k K) (s : FEMState P T k K) :
    Py (FEMState P T k K) := do
  let p ← comp.update s.Gamma s.params
  pure (({ s with params := p } : FEMState P T k K).evaluateDistance comp)

/-- The check after each update, src/reor/fembv.py lines 272-277 and 283-288. -/
def femCheck (require : Bool) (tolerance : K) (nIter : ℕ) (oldCost newCost : K) : Py Unit :=
  if nIter > 0 ∧ require = true ∧ newCost > oldCost ∧ |newCost - oldCost| > tolerance then
    Py.raise .runtimeError
  else Py.ok ()

/-- The parameters part of an iteration, src/reor/fembv.py lines 268-277. -/
def femParametersPhase (comp : FEMComp P T k K) (require : Bool) (tolerance : K) (nIter : ℕ)
    (s : FEMState P T k K) (oldCost : K) : Py (FEMState P T k K × K) := do
  let s ← s.updateParameters comp
  let r := s.evaluateCost comp
  let _ ← femCheck require tolerance nIter oldCost r.2
  pure r

/-- The weights part of an iteration, src/reor/fembv.py lines 279-288. -/
def femWeightsPhase {e : ℕ} (comp : FEMComp P T k K) (solver : LPSolver K)
    (con : Option (FEMConstraints (k * T + e) K)) (require : Bool) (tolerance : K) (nIter : ℕ)
    (s : FEMState P T k K) (oldCost : K) : Py ((FEMState P T k K × K) × Bool) := do
  let q ← s.updateWeights comp solver con
  let r := q.1.evaluateCost comp
  let _ ← femCheck require tolerance nIter oldCost r.2
  pure (r, q.2)

/-- One iteration, src/reor/fembv.py lines 266-288. -/
def femStep {e : ℕ} (comp : FEMComp P T k K) (solver : LPSolver K)
    (con : Option (FEMConstraints (k * T + e) K)) (require : Bool) (tolerance : K)
    (updateParameters updateWeights : Bool) (nIter : ℕ) (s : FEMState P T k K) (oldCost : K) :
    Py ((FEMState P T k K × K) × Bool) := do
  let r ← (match updateParameters with
    | true => femParametersPhase comp require tolerance nIter s oldCost
    | false => Py.ok (s, oldCost))
  match updateWeights with
    | true => femWeightsPhase comp solver con require tolerance nIter r.1 oldCost
    | false => Py.ok (r, false)

/-- Result of the iteration: as for the other estimators, with the number of warnings of failed
weights updates. -/
structure FEMResult (P : Type) (T k : ℕ) (K : Type) where
  state : FEMState P T k K
  cost : K
  nIter : ℕ
  trace : List K
  failures : ℕ

/-- The loop of `_iterate`, src/reor/fembv.py lines 263-304. -/
def femLoop {e : ℕ} (comp : FEMComp P T k K) (solver : LPSolver K)
    (con : Option (FEMConstraints (k * T + e) K)) (require : Bool) (tolerance : K)
    (updateParameters updateWeights : Bool) :
    List ℕ → FEMState P T k K → K → Option ℕ → List K → ℕ → Py (FEMResult P T k K)
  | [], s, newCost, last, trace, failures =>
    match last with
    | none => Py.raise .unboundLocalError
    | some n => Py.ok ⟨s, newCost, n, trace, failures⟩
  | i :: is, s, newCost, _, trace, failures => do
    let oldCost := newCost
    let r ← femStep comp solver con require tolerance updateParameters updateWeights i s oldCost
    let costDelta := r.1.2 - oldCost
    let failures := failures + (if r.2 then 1 else 0)
    if |costDelta| < tolerance then Py.ok ⟨r.1.1, r.1.2, i, trace ++ [r.1.2], failures⟩
    else
      femLoop comp solver con require tolerance updateParameters updateWeights is r.1.1 r.1.2
        (some i) (trace ++ [r.1.2]) failures

/-- `_iterate`, src/reor/fembv.py lines 250-304. -/
def femIterate {e : ℕ} (comp : FEMComp P T k K) (solver : LPSolver K)
    (con : Option (FEMConstraints (k * T + e) K)) (require : Bool) (tolerance : K)
    (maxIterations : ℕ) (updateParameters updateWeights : Bool) (s : FEMState P T k K) :
    Py (FEMResult P T k K) :=
  let r := s.evaluateCost comp
  femLoop comp solver con require tolerance updateParameters updateWeights
    (List.range maxIterations) r.1 r.2 none [] 0

end Iterate

/-! ### Initial weights -/

/-- `_check_init_weights`, src/reor/fembv.py lines 24-27. -/
def femCheckInitWeights (weights : Arr2 K) (T k : ℕ) : Py (Matrix (Fin T) (Fin k) K) := do
  let A ← checkArray (some weights)
  let W ← checkArrayShape A T k
  let _ ← checkUnitRowSums W
  pure W

/-- The weights chosen by `_initialize_weights`, src/reor/fembv.py lines 30-39 and 171-181; the `init`
handed to the random initialiser is not used. -/
def femInitWeights (R : Rng K) (T k : ℕ) (weights : Option (Arr2 K)) (init : Option String)
    (g : R.G) : Py (Matrix (Fin T) (Fin k) K × R.G) :=
  match (if init = some "custom" then weights else none) with
  | some w => do
    let W ← femCheckInitWeights w T k
    pure (W, g)
  | none => rightStochasticMatrix R T k g

/-! ### FEM-BV-k-means -/

/-- `_evaluate_distance_matrix`, src/reor/fembv_kmeans.py lines 137-141 (the norm is squared at
once). The array has the dtype of the data; see Model/DTypesFEM.lean for integer data. -/
def kmeansDistance {T D k : ℕ} (X : Matrix (Fin T) (Fin D) K) (Theta : Matrix (Fin k) (Fin D) K) :
    Matrix (Fin T) (Fin k) K :=
  fun t j => ∑ d, (X t d - Theta j d) ^ 2

/-- `_update_parameters`, src/reor/fembv_kmeans.py lines 165-172. -/
def kmeansUpdate {T D k : ℕ} (X : Matrix (Fin T) (Fin D) K) (Gamma : Matrix (Fin T) (Fin k) K)
    (_ : Matrix (Fin k) (Fin D) K) : Py (Matrix (Fin k) (Fin D) K) :=
  let Theta : Matrix (Fin k) (Fin D) K := fun i d => ∑ t, Gamma t i * X t d
  let normalizations : Fin k → K := fun j => ∑ t, Gamma t j
  if ∃ j, ∃ _ : Fin D, normalizations j = 0 then Py.raise .nonFinite
  else Py.ok fun j d => Theta j d / normalizations j

/-- The FEM-BV-k-means component model. -/
def kmeansComp {T D : ℕ} (k : ℕ) (X : Matrix (Fin T) (Fin D) K) :
    FEMComp (Matrix (Fin k) (Fin D) K) T k K :=
  ⟨kmeansDistance X, kmeansUpdate X⟩

/-- `_initialize_fembv_kmeans_random`, src/reor/fembv_kmeans.py lines 22-55: rows of the data drawn
without replacement (a ValueError if there are too few). -/
def kmeansRandom (R : Rng K) {T D : ℕ} (X : Matrix (Fin T) (Fin D) K) (k : ℕ) (g : R.G) :
    Py (Matrix (Fin k) (Fin D) K × R.G) :=
  if T < k then Py.raise .valueError
  else do
    let d := R.choice T k g
    let rows ← rowIndices T k (d.1.map fun i : ℕ => (i : ℤ))
    pure (fun j => X (rows j), d.2)

/-- `_check_init_parameters`, src/reor/fembv_kmeans.py lines 17-19. -/
def kmeansCheckParameters (parameters : Arr2 K) (k D : ℕ) : Py (Matrix (Fin k) (Fin D) K) := do
  let A ← checkArray (some parameters)
  checkArrayShape A k D

/-- The centroids chosen by `_initialize_components`, src/reor/fembv_kmeans.py lines 143-163. -/
def kmeansInit (R : Rng K) {T D : ℕ} (X : Matrix (Fin T) (Fin D) K) (k : ℕ)
    (parameters : Option (Arr2 K)) (init : Option String) (g : R.G) :
    Py (Matrix (Fin k) (Fin D) K × R.G) :=
  match (if init = some "custom" then parameters else none) with
  | some p => do
    let Theta ← kmeansCheckParameters p k D
    pure (Theta, g)
  | none => kmeansRandom R X k g

/-- A `FEMBVKMeans` object, src/reor/fembv.py lines 45-68 and src/reor/fembv_kmeans.py
lines 125-135. The arrays that every fit sets up anew (constraints, distances, data) are left
out. -/
structure FEMKMeansObj (R : Rng K) where
  nComponents : NumArg K
  maxTvNorm : NumArg K
  init : Option String
  maxIterations : NumArg K
  tolerance : NumArg K
  randomState : R.G
  require : Bool
  Gamma : Option (Arr2 K) := none
  Theta : Option (Arr2 K) := none
  nComponents_ : Option ℕ := none
  cost_ : Option K := none
  nIter_ : Option ℕ := none

/-- Report of a FEM-BV fit. -/
structure FEMInfo (K : Type) where
  cost : K
  nIter : ℕ
  warned : Bool
  trace : List K
  failures : ℕ

/-- Arguments of `_fembv_fit` besides the data. Other keyword arguments are accepted and ignored. -/
structure FEMArgs (K : Type) where
  parameters : Option (Arr2 K) := none
  weights : Option (Arr2 K) := none
  init : Option String := none
  updateParameters : Bool := true
  updateWeights : Bool := true

/-- `_fembv_fit` of `FEMBVKMeans`, src/reor/fembv.py lines 306-335 with `_initialize` (lines
192-205; the check of the distance matrix always succeeds, as it is allocated with `n_components`
columns). -/
def femKMeansRun (R : Rng K) (solver : LPSolver K) (obj : FEMKMeansObj R) (data : Arr2 K)
    (args : FEMArgs K) : Py (FEMKMeansObj R × FEMInfo K) := do
  let obj := { obj with nComponents := defaultComponents obj.nComponents data.cols }
  let p ← checkParams obj.nComponents obj.maxIterations obj.tolerance
  let theta ← kmeansInit R data.val p.1 args.parameters args.init obj.randomState
  let gamma ← femInitWeights R data.rows p.1 args.weights args.init theta.2
  let tv ← maxTvConstraint obj.maxTvNorm
  let con ← femConstraints tv p.1 data.rows
  let comp := kmeansComp p.1 data.val
  let s : FEMState _ data.rows p.1 K :=
    { Gamma := gamma.1, params := theta.1, distanceMatrix := comp.distance theta.1 }
  let r ← femIterate comp solver con obj.require p.2.2 p.2.1 args.updateParameters
    args.updateWeights s
  let warned := decide (r.nIter = p.2.1 ∧ p.2.2 > 0)
  pure ({ obj with
      randomState := gamma.2
      Gamma := some (Arr2.of r.state.Gamma)
      Theta := some (Arr2.of r.state.params) },
    { cost := r.cost, nIter := r.nIter, warned := warned, trace := r.trace,
      failures := r.failures })

/-- `fit_transform`, src/reor/fembv.py lines 337-366 (`fit`, lines 368-381, without the return
value). -/
def femKMeansFitTransform (R : Rng K) (solver : LPSolver K) (obj : FEMKMeansObj R)
    (data : Arr2 K) (args : FEMArgs K) :
    Py (FEMKMeansObj R × Option (Arr2 K) × FEMInfo K) := do
  let r ← femKMeansRun R solver obj data args
  let obj := { r.1 with
    nComponents_ := r.1.Gamma.map (fun G => G.cols)
    cost_ := some r.2.cost
    nIter_ := some r.2.nIter }
  pure (obj, obj.Gamma, r.2)

/-- `transform`, src/reor/fembv.py lines 383-400. -/
def femKMeansTransform (R : Rng K) (solver : LPSolver K) (obj : FEMKMeansObj R)
    (data : Arr2 K) : Py (FEMKMeansObj R × Option (Arr2 K) × FEMInfo K) := do
  let r ← femKMeansRun R solver obj data { updateParameters := false, updateWeights := true }
  pure (r.1, r.1.Gamma, r.2)

end Reor
