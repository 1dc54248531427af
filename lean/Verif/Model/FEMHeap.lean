import Verif.Model.FEMBV
import Verif.Model.Heap

/-!
`src/reor/fembv_kmeans.py` and the parts of `src/reor/fembv.py` it uses, with arrays in memory: the same
functions as in `Verif.Model.FEMBV`, statement by statement, keeping apart new arrays (`assign`) and
in-place changes (`augment`).  The constraints of the linear program and the auxiliary variables `Eta`,
which are made anew and never changed, are values as in `Verif.Model.FEMBV`.
-/

namespace Reor

open scoped BigOperators Matrix

variable {K : Type} [Field K] [LinearOrder K]

/-- The array attributes of a `FEMBVKMeans` object, src/reor/fembv.py lines 61-63 and
src/reor/fembv_kmeans.py lines 134-135. -/
inductive FEMAttr where
  | X | Gamma | Theta | distanceMatrix
  deriving DecidableEq

/-- Their shapes, for data of shape `T × D` and `k` components. -/
def femShape (T D k : ℕ) : FEMAttr → ℕ × ℕ
  | .X => (T, D)
  | .Gamma | .distanceMatrix => (T, k)
  | .Theta => (k, D)

/-- A `FEMBVKMeans` object during a fit. -/
abbrev FEMMem (K : Type) := HState FEMAttr Unit K

/-- Result of the iteration, with the object in memory. -/
structure FEMHResult (K : Type) where
  state : FEMMem K
  cost : K
  nIter : ℕ
  trace : List K
  failures : ℕ

namespace FEMMem

/-- `self.X`. -/
def X (T D k : ℕ) (s : FEMMem K) : Matrix (Fin T) (Fin D) K := s.val (femShape T D k) .X

/-- `self.Gamma`. -/
def Gamma (T D k : ℕ) (s : FEMMem K) : Matrix (Fin T) (Fin k) K := s.val (femShape T D k) .Gamma

/-- `self.Theta`. -/
def Theta (T D k : ℕ) (s : FEMMem K) : Matrix (Fin k) (Fin D) K := s.val (femShape T D k) .Theta

/-- `self.distance_matrix`. -/
def distanceMatrix (T D k : ℕ) (s : FEMMem K) : Matrix (Fin T) (Fin k) K :=
  s.val (femShape T D k) .distanceMatrix

/-- The values of the attributes used by `Verif.Model.FEMBV`, read from memory. -/
def rd (T D k : ℕ) (s : FEMMem K) : FEMState (Matrix (Fin k) (Fin D) K) T k K :=
  { Gamma := s.Gamma T D k, params := s.Theta T D k, distanceMatrix := s.distanceMatrix T D k }

/-- One pass of the loop over the components, src/reor/fembv_kmeans.py lines 139-141: a column of
`self.distance_matrix` is overwritten. -/
def writeColumn (T D k : ℕ) (s : FEMMem K) (j : Fin k) : FEMMem K :=
  let column : Fin T → K := fun t => ∑ d, (s.X T D k t d - s.Theta T D k j d) ^ 2
  s.augment .distanceMatrix
    (show Matrix (Fin T) (Fin k) K from
      fun t i => if i = j then column t else s.distanceMatrix T D k t i)

/-- `_evaluate_distance_matrix`, src/reor/fembv_kmeans.py lines 137-141. -/
def evaluateDistance (T D k : ℕ) (s : FEMMem K) : FEMMem K :=
  (List.finRange k).foldl (writeColumn T D k) s

/-- `_evaluate_cost`, src/reor/fembv.py lines 73-75. -/
def evaluateCost (T D k : ℕ) (s : FEMMem K) : FEMMem K × K :=
  let s := s.evaluateDistance T D k
  (s, mulSum (s.Gamma T D k) (s.distanceMatrix T D k))

/-- `_update_parameters`, src/reor/fembv_kmeans.py lines 165-172. -/
def updateParameters (T D k : ℕ) (s : FEMMem K) : HPy K (FEMMem K) :=
  let s : FEMMem K := s.assign .Theta
    (show Matrix (Fin k) (Fin D) K from fun i d => ∑ t, s.Gamma T D k t i * s.X T D k t d)
  let normalizations : Fin k → K := fun j => ∑ t, s.Gamma T D k t j
  if ∃ j, ∃ _ : Fin D, normalizations j = 0 then HPy.raise .nonFinite s.heap
  else
    let s : FEMMem K := s.assign .Theta
      (show Matrix (Fin k) (Fin D) K from fun j d => s.Theta T D k j d / normalizations j)
    HPy.ok (s.evaluateDistance T D k)

/-- Use of the solution, src/reor/fembv.py lines 233-239 (`np.clip` makes a new array). -/
def useSolution (T k : ℕ) {e : ℕ} (s : FEMMem K) :
    LPOutcome K (k * T + e) → HPy K (FEMMem K × Bool)
  | .value v => HPy.ok (s.assign .Gamma (lpWeights v : Matrix (Fin T) (Fin k) K), false)
  | .failed => HPy.ok (s, true)
  | .noValue => HPy.raise .typeError s.heap
  | .error e => HPy.raise e s.heap

/-- `_update_weights`, src/reor/fembv.py lines 207-244. -/
def updateWeights (T D k : ℕ) {e : ℕ} (solver : LPSolver K)
    (con : Option (FEMConstraints (k * T + e) K)) (s : FEMMem K) : HPy K (FEMMem K × Bool) :=
  if k = 1 then HPy.ok (s, false)
  else
    let s := s.evaluateDistance T D k
    match con with
    | none => HPy.raise .typeError s.heap
    | some con => s.useSolution T k (solver (weightsProgram con (s.distanceMatrix T D k)))

/-- The parameters part of an iteration, src/reor/fembv.py lines 268-277. -/
def parametersPhase (T D k : ℕ) (require : Bool) (tolerance : K) (nIter : ℕ) (s : FEMMem K)
    (oldCost : K) : HPy K (FEMMem K × K) := do
  let s ← s.updateParameters T D k
  let r := s.evaluateCost T D k
  let _ ← HPy.lift r.1.heap (femCheck require tolerance nIter oldCost r.2)
  pure r

/-- The weights part of an iteration, src/reor/fembv.py lines 279-288. -/
def weightsPhase (T D k : ℕ) {e : ℕ} (solver : LPSolver K)
    (con : Option (FEMConstraints (k * T + e) K)) (require : Bool) (tolerance : K) (nIter : ℕ)
    (s : FEMMem K) (oldCost : K) : HPy K ((FEMMem K × K) × Bool) := do
  let q ← s.updateWeights T D k solver con
  let r := q.1.evaluateCost T D k
  let _ ← HPy.lift r.1.heap (femCheck require tolerance nIter oldCost r.2)
  pure (r, q.2)

/-- One iteration, src/reor/fembv.py lines 266-288. -/
def step (T D k : ℕ) {e : ℕ} (solver : LPSolver K) (con : Option (FEMConstraints (k * T + e) K))
    (require : Bool) (tolerance : K) (updateParameters updateWeights : Bool) (nIter : ℕ)
    (s : FEMMem K) (oldCost : K) : HPy K ((FEMMem K × K) × Bool) := do
  let r ← (match updateParameters with
    | true => s.parametersPhase T D k require tolerance nIter oldCost
    | false => HPy.ok (s, oldCost))
  match updateWeights with
    | true => r.1.weightsPhase T D k solver con require tolerance nIter oldCost
    | false => HPy.ok (r, false)

/-- The loop of `_iterate`, src/reor/fembv.py lines 263-304. -/
def loop (T D k : ℕ) {e : ℕ} (solver : LPSolver K) (con : Option (FEMConstraints (k * T + e) K))
    (require : Bool) (tolerance : K) (updateParameters updateWeights : Bool) :
    List ℕ → FEMMem K → K → Option ℕ → List K → ℕ → HPy K (FEMHResult K)
  | [], s, newCost, last, trace, failures =>
    match last with
    | none => HPy.raise .unboundLocalError s.heap
    | some n => HPy.ok ⟨s, newCost, n, trace, failures⟩
  | i :: is, s, newCost, _, trace, failures => do
    let oldCost := newCost
    let r ← s.step T D k solver con require tolerance updateParameters updateWeights i oldCost
    let costDelta := r.1.2 - oldCost
    let failures := failures + (if r.2 then 1 else 0)
    if |costDelta| < tolerance then HPy.ok ⟨r.1.1, r.1.2, i, trace ++ [r.1.2], failures⟩
    else
      loop T D k solver con require tolerance updateParameters updateWeights is r.1.1 r.1.2
        (some i) (trace ++ [r.1.2]) failures

/-- `_iterate`, src/reor/fembv.py lines 250-304. -/
def iterate (T D k : ℕ) {e : ℕ} (solver : LPSolver K) (con : Option (FEMConstraints (k * T + e) K))
    (require : Bool) (tolerance : K) (maxIterations : ℕ) (updateParameters updateWeights : Bool)
    (s : FEMMem K) : HPy K (FEMHResult K) :=
  let r := s.evaluateCost T D k
  loop T D k solver con require tolerance updateParameters updateWeights
    (List.range maxIterations) r.1 r.2 none [] 0

/-- `self.Theta` in `_initialize_components`, src/reor/fembv_kmeans.py lines 153-161: a copy of the
caller's array, or rows of the data (indexing with an array of integers copies). -/
def initializeTheta (R : Rng K) (T D k : ℕ) (parameters : Option ℕ) (init : Option String) (g : R.G)
    (s : FEMMem K) : HPy K (FEMMem K × R.G) :=
  match (if init = some "custom" then parameters else none) with
  | some a => do
    let _ ← HPy.lift s.heap (kmeansCheckParameters (s.heap.cell a) k D)
    pure (s.assign .Theta ((s.heap.cell a).at k D), g)
  | none => do
    let r ← HPy.lift s.heap (kmeansRandom R (s.X T D k) k g)
    pure (s.assign .Theta r.1, r.2)

/-- `_initialize_components`, src/reor/fembv_kmeans.py lines 143-163.  `empty` is what `np.empty` finds
in memory. -/
def initializeComponents (R : Rng K) (T D k : ℕ) (empty : Matrix (Fin T) (Fin k) K)
    (parameters : Option ℕ) (init : Option String) (g : R.G) (data : ℕ) (s : FEMMem K) :
    HPy K (FEMMem K × R.G) := do
  let s : FEMMem K := s.assign .X ((s.heap.cell data).at T D)
  let s : FEMMem K := s.assign .distanceMatrix empty
  let r ← s.initializeTheta R T D k parameters init g
  pure (r.1.evaluateDistance T D k, r.2)

/-- `self.Gamma` in `_initialize_weights`, src/reor/fembv.py lines 174-181: a copy of the caller's
array, or a new one. -/
def initializeWeights (R : Rng K) (T k : ℕ) (weights : Option ℕ) (init : Option String) (g : R.G)
    (s : FEMMem K) : HPy K (FEMMem K × R.G) :=
  match (if init = some "custom" then weights else none) with
  | some a => do
    let _ ← HPy.lift s.heap (femCheckInitWeights (s.heap.cell a) T k)
    pure (s.assign .Gamma ((s.heap.cell a).at T k), g)
  | none => do
    let r ← HPy.lift s.heap (rightStochasticMatrix R T k g)
    pure (s.assign .Gamma r.1, r.2)

end FEMMem

/-- A `FEMBVKMeans` object between calls: like `FEMKMeansObj`, with the addresses of its arrays. -/
structure FEMHObj (R : Rng K) where
  nComponents : NumArg K
  maxTvNorm : NumArg K
  init : Option String
  maxIterations : NumArg K
  tolerance : NumArg K
  randomState : R.G
  require : Bool
  Gamma : Option ℕ := none
  Theta : Option ℕ := none
  nComponents_ : Option ℕ := none
  cost_ : Option K := none
  nIter_ : Option ℕ := none

/-- The object with the values of its arrays. -/
def FEMHObj.deref {R : Rng K} (obj : FEMHObj R) (h : Heap K) : FEMKMeansObj R :=
  { nComponents := obj.nComponents, maxTvNorm := obj.maxTvNorm, init := obj.init
    maxIterations := obj.maxIterations, tolerance := obj.tolerance
    randomState := obj.randomState, require := obj.require
    Gamma := obj.Gamma.map h.cell
    Theta := obj.Theta.map h.cell
    nComponents_ := obj.nComponents_, cost_ := obj.cost_, nIter_ := obj.nIter_ }

/-- Arguments of `_fembv_fit` besides the data, as addresses. -/
structure FEMHArgs where
  parameters : Option ℕ := none
  weights : Option ℕ := none
  init : Option String := none
  updateParameters : Bool := true
  updateWeights : Bool := true

/-- Their values. -/
def FEMHArgs.deref (h : Heap K) (a : FEMHArgs) : FEMArgs K :=
  { parameters := a.parameters.map h.cell, weights := a.weights.map h.cell, init := a.init
    updateParameters := a.updateParameters, updateWeights := a.updateWeights }

/-- `_fembv_fit`, src/reor/fembv.py lines 306-335 with `_initialize` (lines 192-205).  Before the
attributes are assigned their addresses do not matter.  `empty` gives the contents of the array made
by `np.empty`. -/
def hFemKMeansRun (R : Rng K) (solver : LPSolver K)
    (empty : (T k : ℕ) → Matrix (Fin T) (Fin k) K) (h : Heap K) (obj : FEMHObj R) (data : ℕ)
    (args : FEMHArgs) : HPy K (Heap K × FEMHObj R × FEMInfo K) := do
  let T := (h.cell data).rows
  let D := (h.cell data).cols
  let obj := { obj with nComponents := defaultComponents obj.nComponents D }
  let p ← HPy.lift h (checkParams obj.nComponents obj.maxIterations obj.tolerance)
  let s : FEMMem K := ⟨fun _ => data, (), h⟩
  let c ← s.initializeComponents R T D p.1 (empty T p.1) args.parameters args.init obj.randomState
    data
  let w ← c.1.initializeWeights R T p.1 args.weights args.init c.2
  let tv ← HPy.lift w.1.heap (maxTvConstraint obj.maxTvNorm)
  let con ← HPy.lift w.1.heap (femConstraints tv p.1 T)
  let r ← w.1.iterate T D p.1 solver con obj.require p.2.2 p.2.1 args.updateParameters
    args.updateWeights
  let warned := decide (r.nIter = p.2.1 ∧ p.2.2 > 0)
  pure (r.state.heap,
    { obj with
      randomState := w.2
      Gamma := some (r.state.addr .Gamma)
      Theta := some (r.state.addr .Theta) },
    { cost := r.cost, nIter := r.nIter, warned := warned, trace := r.trace
      failures := r.failures })

/-- `fit_transform`, src/reor/fembv.py lines 337-366: `self.Gamma` itself is returned. -/
def hFemKMeansFitTransform (R : Rng K) (solver : LPSolver K)
    (empty : (T k : ℕ) → Matrix (Fin T) (Fin k) K) (h : Heap K) (obj : FEMHObj R) (data : ℕ)
    (args : FEMHArgs) : HPy K (Heap K × FEMHObj R × Option ℕ × FEMInfo K) := do
  let r ← hFemKMeansRun R solver empty h obj data args
  let obj := { r.2.1 with
    nComponents_ := r.2.1.Gamma.map (fun a => (r.1.cell a).cols)
    cost_ := some r.2.2.cost
    nIter_ := some r.2.2.nIter }
  pure (r.1, obj, obj.Gamma, r.2.2)

/-- `transform`, src/reor/fembv.py lines 383-400. -/
def hFemKMeansTransform (R : Rng K) (solver : LPSolver K)
    (empty : (T k : ℕ) → Matrix (Fin T) (Fin k) K) (h : Heap K) (obj : FEMHObj R) (data : ℕ) :
    HPy K (Heap K × FEMHObj R × Option ℕ × FEMInfo K) := do
  let r ← hFemKMeansRun R solver empty h obj data { updateParameters := false, updateWeights := true }
  pure (r.1, r.2.1, r.2.1.Gamma, r.2.2)

end Reor
