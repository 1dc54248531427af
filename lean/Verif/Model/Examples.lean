import Verif.Model.New
import Verif.Model.VARX
import Mathlib.Analysis.SpecialFunctions.Trigonometric.Basic

/-!
Model of the example programs: `examples/fem-bv-kmeans/gaussian_clusters.py`,
`examples/fem-bv-varx/switching.py`, `examples/fem-bv-varx/periodic.py` and
`examples/pwvarx/kmeans_siso.py`: the data they generate, the repeated fits, and the bookkeeping of
the last one.  Command lines and the contents of plots are left out.
-/

namespace Reor

open scoped BigOperators

/-! ### Repeated fits -/

section BestFit

variable {K : Type} [Field K] [LinearOrder K] {G Obj W : Type}

/-- `if best_fit is None or fit.cost_ < best_fit.cost_`,
examples/fem-bv-kmeans/gaussian_clusters.py lines 85-87 (and the same lines 70-72 of
examples/fem-bv-varx/periodic.py, 87-89 of examples/fem-bv-varx/switching.py).  Copies are values
here; comparing with `None` is a TypeError. -/
def keepBetter (cost : Obj → Option K) : Option (Obj × W) → Obj × W → Py (Option (Obj × W))
  | none, r => Py.ok (some r)
  | some b, r =>
    match cost r.1, cost b.1 with
    | some x, some y => Py.ok (if x < y then some r else some b)
    | _, _ => Py.raise .typeError

/-- The loop over the starts, examples/fem-bv-kmeans/gaussian_clusters.py lines 76-87 (and the same
loop in examples/fem-bv-varx).  `start` makes and fits a model with the given generator, which all
starts share. -/
def bestFitLoop (start : G → Py ((Obj × W) × G)) (cost : Obj → Option K) :
    ℕ → Option (Obj × W) → G → Py (Option (Obj × W) × G)
  | 0, best, g => Py.ok (best, g)
  | n + 1, best, g => do
    let r ← start g
    let best ← keepBetter cost best r.1
    bestFitLoop start cost n best r.2

end BestFit

/-- One start, examples/fem-bv-kmeans/gaussian_clusters.py lines 78-83. -/
def kmeansStart {K : Type} [Field K] [LinearOrder K] (R : Rng K) (solver : LPSolver K) (X : Arr2 K)
    (nComponents maxTvNorm tolerance maxIterations : NumArg K) (g : R.G) :
    Py ((FEMKMeansObj R × Option (Arr2 K)) × R.G) := do
  let fit : FEMKMeansObj R := femKMeansNew g nComponents maxTvNorm (maxIterations := maxIterations)
    (tolerance := tolerance)
  let r ← femKMeansFitTransform R solver fit X {}
  pure ((r.1, r.2.1), r.1.randomState)

/-- `fit_fembv_kmeans`, examples/fem-bv-kmeans/gaussian_clusters.py lines 66-89, with a generator as
`random_state`.  The number of starts is an integer; `range` of a negative one is empty. -/
def fitFembvKMeans {K : Type} [Field K] [LinearOrder K] (R : Rng K) (solver : LPSolver K)
    (X : Arr2 K) (g : R.G) (nComponents : NumArg K := .int 2) (maxTvNorm : NumArg K := .none)
    (nInit : ℤ := 10) (tolerance : NumArg K := .real (1 / 10 ^ 4))
    (maxIterations : NumArg K := .int 500) :
    Py (Option (FEMKMeansObj R × Option (Arr2 K)) × R.G) :=
  bestFitLoop (kmeansStart R solver X nComponents maxTvNorm tolerance maxIterations)
    FEMKMeansObj.cost_ nInit.toNat none g

/-- `FEMBVVARX.__init__`, src/reor/fembv_varx.py lines 250-285 and src/reor/fembv.py lines 45-68. -/
noncomputable def femVARXNew {R : Rng ℝ} (g : R.G) (nComponents maxTvNorm : NumArg ℝ)
    (memory : MemoryArg := .none) (kw : Kwargs ℝ := []) (maxIterations : NumArg ℝ := .int 500)
    (tolerance : NumArg ℝ := .real (1 / 10 ^ 4)) : Py (FEMVARXObj R) := do
  let m ← varxMemory nComponents memory
  pure { nComponents := nComponents, maxTvNorm := maxTvNorm, memory := m
         maxIterations := maxIterations, tolerance := tolerance, randomState := g
         require := (kw.get "require_monotonic_cost_decrease" (.bool false)).truth }

/-- One start, examples/fem-bv-varx/switching.py lines 79-85, examples/fem-bv-varx/periodic.py lines
62-68. -/
noncomputable def varxStart (R : Rng ℝ) (solver : LPSolver ℝ) (lstsq : LstSq) (mem : Memory)
    (X : Arr2 ℝ) (nComponents maxTvNorm : NumArg ℝ) (memory : MemoryArg)
    (tolerance maxIterations : NumArg ℝ) (g : R.G) :
    Py ((FEMVARXObj R × Option (Arr2 ℝ)) × R.G) := do
  let fit ← femVARXNew (R := R) g nComponents maxTvNorm memory (maxIterations := maxIterations)
    (tolerance := tolerance)
  let r ← femVARXFitTransform R solver lstsq mem fit X {}
  pure ((r.1, r.2.1), r.1.randomState)

/-- `fit_fembv_varx`, examples/fem-bv-varx/switching.py lines 67-91, examples/fem-bv-varx/periodic.py
lines 50-74. -/
noncomputable def fitFembvVarx (R : Rng ℝ) (solver : LPSolver ℝ) (lstsq : LstSq) (mem : Memory)
    (X : Arr2 ℝ) (g : R.G) (nComponents : NumArg ℝ := .int 2) (maxTvNorm : NumArg ℝ := .none)
    (memory : MemoryArg := .int 0) (nInit : ℤ := 10) (tolerance : NumArg ℝ := .real (1 / 10 ^ 4))
    (maxIterations : NumArg ℝ := .int 500) :
    Py (Option (FEMVARXObj R × Option (Arr2 ℝ)) × R.G) :=
  bestFitLoop (varxStart R solver lstsq mem X nComponents maxTvNorm memory tolerance maxIterations)
    FEMVARXObj.cost_ nInit.toNat none g

/-! ### Draws -/

/-- The draws used to generate data. -/
structure DataRng (K : Type) where
  /-- states of the generator -/
  G : Type
  /-- `rng.normal(size=(n,))` -/
  normal : (n : ℕ) → G → (Fin n → K) × G
  /-- `rng.normal(size=(a, b))` -/
  normal2 : (a b : ℕ) → G → Matrix (Fin a) (Fin b) K × G
  /-- `rng.normal(size=(p, a, b))` -/
  normal3 : (p a b : ℕ) → G → (Fin p → Matrix (Fin a) (Fin b) K) × G
  /-- `rng.normal(size=(k, p, a, b))` -/
  normal4 : (k p a b : ℕ) → G → (Fin k → Fin p → Matrix (Fin a) (Fin b) K) × G
  /-- `rng.multivariate_normal(mean, cov)` -/
  mvn : {n : ℕ} → (Fin n → K) → Matrix (Fin n) (Fin n) K → G → (Fin n → K) × G
  /-- `rng.choice(np.arange(n))` for `n > 0` -/
  choice : ℕ → G → ℕ × G
  /-- `rng.uniform(low=low, high=high)` -/
  uniform : (low high : K) → G → K × G
  /-- `rng.uniform(size=(n,), low=low, high=high)` -/
  uniform1 : (low high : K) → (n : ℕ) → G → (Fin n → K) × G

/-- What numpy documents of the draws with a range. -/
structure DataRng.Lawful {K : Type} [Field K] [LinearOrder K] (R : DataRng K) : Prop where
  choice_lt : ∀ n g, 0 < n → (R.choice n g).1 < n
  uniform_mem : ∀ low high g, low ≤ high → low ≤ (R.uniform low high g).1 ∧
    (R.uniform low high g).1 ≤ high
  uniform1_mem : ∀ low high n g i, low ≤ high → low ≤ (R.uniform1 low high n g).1 i ∧
    (R.uniform1 low high n g).1 i ≤ high

/-! ### Gaussian clusters -/

section Gaussian

variable {K : Type} [Field K] [LinearOrder K]

/-- `CLUSTER_MEANS`, examples/fem-bv-kmeans/gaussian_clusters.py lines 21-28. -/
def clusterMeans : Fin 3 → Fin 2 → K := ![![0, 1 / 2], ![0, -1 / 2], ![1 / 4, 0]]

/-- `CLUSTER_COVARIANCES`, examples/fem-bv-kmeans/gaussian_clusters.py lines 22-30. -/
def clusterCovariances : Fin 3 → Matrix (Fin 2) (Fin 2) K :=
  ![!![1 / 1000, 0; 0, 1 / 50], !![1 / 1000, 0; 0, 1 / 50], !![1 / 500, 0; 0, 3 / 10]]

/-- `Gamma[a:b, cluster] = 1`. -/
def setOnes {T k : ℕ} (Gamma : Matrix (Fin T) (Fin k) K) (a b : ℕ) (cluster : Fin k) :
    Matrix (Fin T) (Fin k) K :=
  fun t j => if a ≤ (t : ℕ) ∧ (t : ℕ) < b ∧ j = cluster then 1 else Gamma t j

/-- The affiliations, examples/fem-bv-kmeans/gaussian_clusters.py lines 38-45
(`np.floor` of a quotient of integers; adding in `Fin 3` is adding modulo `N_CLUSTERS`). -/
def gaussianGamma (T nSwitches : ℕ) : Matrix (Fin T) (Fin 3) K :=
  let runLength := T / (nSwitches + 1)
  let r := (List.range nSwitches).foldl
    (fun (s : Matrix (Fin T) (Fin 3) K × Fin 3) i =>
      (setOnes s.1 (i * runLength) ((i + 1) * runLength) s.2, s.2 + 1)) (fun _ _ => 0, 0)
  setOnes r.1 (nSwitches * runLength) T r.2

/-- The draws for one sample, examples/fem-bv-kmeans/gaussian_clusters.py lines 49-52. -/
def gaussianDraws (R : DataRng K) (g : R.G) : (Fin 3 → Fin 2 → K) × R.G :=
  (List.finRange 3).foldl (fun (s : (Fin 3 → Fin 2 → K) × R.G) j =>
    let r := R.mvn (clusterMeans j) (clusterCovariances j) s.2
    (Function.update s.1 j r.1, r.2)) (fun _ _ => 0, g)

/-- `generate_data`, examples/fem-bv-kmeans/gaussian_clusters.py lines 33-55. -/
def gaussianData (R : DataRng K) (T nSwitches : ℕ) (g : R.G) :
    (Matrix (Fin T) (Fin 2) K × Matrix (Fin T) (Fin 3) K) × R.G :=
  let Gamma : Matrix (Fin T) (Fin 3) K := gaussianGamma T nSwitches
  let s := (List.finRange T).foldl (fun (s : Matrix (Fin T) (Fin 2) K × R.G) i =>
    let r := gaussianDraws R s.2
    (Function.update s.1 i (fun d => ∑ j, Gamma i j * r.1 j d), r.2)) (fun _ _ => 0, g)
  ((s.1, Gamma), s.2)

end Gaussian

/-! ### Vector autoregressive processes -/

section Switching

variable {K : Type} [Field K] [LinearOrder K]

/-- `X[i] = rng.normal(size=(n_features,))` for the first samples,
examples/fem-bv-varx/switching.py lines 23-25, examples/fem-bv-varx/periodic.py lines 24-27.
`empty` is what `np.empty` finds in memory; too few samples are an IndexError. -/
def initialRows (R : DataRng K) {T n : ℕ} (empty : Matrix (Fin T) (Fin n) K) (order : ℕ) (g : R.G) :
    Py (Matrix (Fin T) (Fin n) K × R.G) :=
  if T < order then Py.raise .indexError
  else Py.ok ((List.finRange T).foldl (fun (s : Matrix (Fin T) (Fin n) K × R.G) (i : Fin T) =>
    if (i : ℕ) < order then
      let r := R.normal n s.2
      (Function.update s.1 i r.1, r.2)
    else s) (empty, g))

/-- The sample `X[t - m]` for `m = i + 1`. -/
def lagged {T : ℕ} (t : Fin T) (i : ℕ) : Fin T := ⟨t - (i + 1), lt_of_le_of_lt (Nat.sub_le _ _) t.2⟩

/-- The variables of the loop of examples/fem-bv-varx/switching.py. -/
structure SwitchState (R : DataRng K) (T n k : ℕ) where
  X : Matrix (Fin T) (Fin n) K
  weights : Matrix (Fin T) (Fin k) K
  mu : Matrix (Fin k) (Fin n) K
  component : Fin k
  residence : ℕ
  g : R.G

/-- `(component + 1) % n_components`. -/
def nextComponent {k : ℕ} (c : Fin k) : Fin k :=
  ⟨(c + 1) % k, Nat.mod_lt _ (lt_of_le_of_lt (Nat.zero_le _) c.2)⟩

/-- `noise_variance*np.eye(n_features)`. -/
def noiseCov (n : ℕ) (noiseVariance : K) : Matrix (Fin n) (Fin n) K :=
  fun i j => if i = j then noiseVariance else 0

/-- `xt = mu[component]` and `xt += ...`, examples/fem-bv-varx/switching.py lines 51-54.  `xt` is a
view: the row of `mu` is changed. -/
def addLags {T n k order : ℕ} (X : Matrix (Fin T) (Fin n) K)
    (A : Fin k → Fin order → Matrix (Fin n) (Fin n) K) (t : Fin T) (c : Fin k)
    (mu : Matrix (Fin k) (Fin n) K) : Matrix (Fin k) (Fin n) K :=
  (List.finRange order).foldl (fun mu i =>
    Function.update mu c (fun d => mu c d + ∑ e, A c i d e * X (lagged t i) e)) mu

/-- One sample, examples/fem-bv-varx/switching.py lines 49-63. -/
def switchStep (R : DataRng K) {T n k order : ℕ} (A : Fin k → Fin order → Matrix (Fin n) (Fin n) K)
    (noiseVariance : K) (maxResidence : ℕ) (s : SwitchState R T n k) (t : Fin T) :
    SwitchState R T n k :=
  let weights := Function.update s.weights t (Function.update (s.weights t) s.component 1)
  let mu := addLags s.X A t s.component s.mu
  let r := R.mvn (mu s.component) (noiseCov n noiseVariance) s.g
  let X := Function.update s.X t r.1
  if s.residence + 1 ≥ maxResidence then
    { X := X, weights := weights, mu := mu, component := nextComponent s.component, residence := 0
      g := r.2 }
  else
    { X := X, weights := weights, mu := mu, component := s.component, residence := s.residence + 1
      g := r.2 }

/-- `max_residence_length`, examples/fem-bv-varx/switching.py lines 34-37. -/
def maxResidence (T nSwitches : ℕ) : ℕ := if nSwitches = 0 then T else T / (nSwitches + 1)

/-- What `generate_data` of examples/fem-bv-varx/switching.py returns. -/
structure SwitchResult (K : Type) (T n k order : ℕ) where
  X : Matrix (Fin T) (Fin n) K
  mu : Matrix (Fin k) (Fin n) K
  A : Fin k → Fin order → Matrix (Fin n) (Fin n) K
  weights : Matrix (Fin T) (Fin k) K

/-- `rng.choice(np.arange(n_components))`, examples/fem-bv-varx/switching.py line 39: choosing from an
empty array is a ValueError. -/
def chooseComponent (R : DataRng K) (k : ℕ) (g : R.G) : Py (Fin k × R.G) :=
  if h : (R.choice k g).1 < k then Py.ok (⟨(R.choice k g).1, h⟩, (R.choice k g).2)
  else Py.raise .valueError

/-- `generate_data`, examples/fem-bv-varx/switching.py lines 17-65.  `emptyX` and `emptyWeights` are
what `np.empty` finds in memory.  (For order 0, `A` is `None` there and has no entries here.) -/
def switchingData (R : DataRng K) (n T k nSwitches order : ℕ) (noiseVariance : K)
    (emptyX : Matrix (Fin T) (Fin n) K) (emptyWeights : Matrix (Fin T) (Fin k) K) (g : R.G) :
    Py (SwitchResult K T n k order × R.G) := do
  let x ← initialRows R emptyX order g
  let mu := R.normal2 k n x.2
  let A := if order > 0 then R.normal4 k order n n mu.2 else (fun _ _ _ _ => 0, mu.2)
  let c ← chooseComponent R k A.2
  let w0 : Matrix (Fin T) (Fin k) K := fun t j =>
    if (t : ℕ) < order ∧ j = c.1 then 1 else emptyWeights t j
  let s := ((List.finRange T).filter fun t : Fin T => order ≤ (t : ℕ)).foldl
    (switchStep R A.1 noiseVariance (maxResidence T nSwitches))
    { X := x.1, weights := w0, mu := mu.1, component := c.1, residence := order, g := c.2 }
  pure ({ X := s.X, mu := s.mu, A := A.1, weights := s.weights }, s.g)

end Switching

section Periodic

/-- `phases`, examples/fem-bv-varx/periodic.py line 36. -/
noncomputable def phases (T : ℕ) (period : ℝ) : Fin T → ℝ :=
  fun t => Real.cos (2 * Real.pi * ((t : ℕ) : ℝ) / period)

/-- `xt` at sample `t`, examples/fem-bv-varx/periodic.py lines 38-42: `mu * phase` is a new array. -/
def periodicMean {T n order : ℕ} (X : Matrix (Fin T) (Fin n) ℝ) (mu : Fin n → ℝ)
    (A : Fin order → Matrix (Fin n) (Fin n) ℝ) (phase : ℝ) (t : Fin T) : Fin n → ℝ :=
  (List.finRange order).foldl (fun xt i =>
    fun d => xt d + ∑ e, (A i d e * phase) * X (lagged t i) e) (fun d => mu d * phase)

/-- What `generate_data` of examples/fem-bv-varx/periodic.py returns. -/
structure PeriodicResult (T n order : ℕ) where
  X : Matrix (Fin T) (Fin n) ℝ
  mu : Fin n → ℝ
  A : Fin order → Matrix (Fin n) (Fin n) ℝ
  phases : Fin T → ℝ

/-- `generate_data`, examples/fem-bv-varx/periodic.py lines 18-47 (`period` is not zero). -/
noncomputable def periodicData (R : DataRng ℝ) (n T : ℕ) (period : ℝ) (order : ℕ)
    (noiseVariance : ℝ) (emptyX : Matrix (Fin T) (Fin n) ℝ) (g : R.G) :
    Py (PeriodicResult T n order × R.G) := do
  let x ← initialRows R emptyX order g
  let mu := R.normal n x.2
  let A := if order > 0 then R.normal3 order n n mu.2 else (fun _ _ _ => 0, mu.2)
  let ph := phases T period
  let s := ((List.finRange T).filter fun t : Fin T => order ≤ (t : ℕ)).foldl
    (fun (s : Matrix (Fin T) (Fin n) ℝ × R.G) t =>
      let r := R.mvn (periodicMean s.1 mu.1 A.1 (ph t) t) (noiseCov n noiseVariance) s.2
      (Function.update s.1 t r.1, r.2)) (x.1, A.2)
  pure ({ X := s.1, mu := mu.1, A := A.1, phases := ph }, s.2)

end Periodic

/-! ### The piecewise affine system -/

section Siso

variable {K : Type} [Field K] [LinearOrder K]

/-- `np.dot(params, [y, u, 1])`. -/
def affine3 (a b c y u : K) : K := a * y + b * u + c * 1

/-- The value of the active affine map, examples/pwvarx/kmeans_siso.py lines 36-47. -/
def sisoStep (y u : K) : Py K :=
  if affine3 4 (-1) 10 y u < 0 then Py.ok (affine3 (-4 / 10) 1 (15 / 10) y u)
  else if affine3 (-4) 1 (-10) y u ≤ 0 ∧ affine3 5 1 (-6) y u ≤ 0 then
    Py.ok (affine3 (5 / 10) (-1) (-5 / 10) y u)
  else if affine3 (-5) (-1) 6 y u < 0 then Py.ok (affine3 (-3 / 10) (5 / 10) (-17 / 10) y u)
  else Py.raise .valueError

/-- The loop of `generate_data`, examples/pwvarx/kmeans_siso.py lines 31-47, over the samples `k`,
with `y[k - 1]` given. -/
def sisoLoop (R : DataRng K) {T : ℕ} (u : Fin T → K) :
    List (Fin T) → (Fin T → K) → (Fin T → K) → R.G → Py ((Fin T → K) × (Fin T → K) × R.G)
  | [], y, e, g => Py.ok (y, e, g)
  | k :: ks, y, e, g => do
    let r := R.uniform (-1 / 10) (1 / 10) g
    let e := Function.update e k r.1
    let v ← sisoStep (y (lagged k 0)) (u (lagged k 0))
    sisoLoop R u ks (Function.update y k (v + e k)) e r.2

/-- `generate_data`, examples/pwvarx/kmeans_siso.py lines 18-49; `y[0] = ...` needs a sample. -/
def sisoData (R : DataRng K) (T : ℕ) (g : R.G) :
    Py ((Fin T → K) × (Fin T → K) × (Fin T → K) × R.G) :=
  if h : 0 < T then do
    let y0 := R.uniform 0 1 g
    let y : Fin T → K := Function.update (fun _ => 0) ⟨0, h⟩ y0.1
    let u := R.uniform1 (-5) 5 T y0.2
    let r ← sisoLoop R u.1 ((List.finRange T).filter fun k : Fin T => 1 ≤ (k : ℕ)) y (fun _ => 0) u.2
    pure (r.1, u.1, r.2.1, r.2.2)
  else Py.raise .indexError

end Siso

/-- What a panel of `plot_cluster_assignments` shows: lag `i + 1` of one variable against lag `j + 1`
of another. -/
inductive Panel where
  | yy (i j : ℕ)
  | uu (i j : ℕ)
  | yu (i j : ℕ)
  deriving DecidableEq

/-- `for i in range(m): for j in range(i + 1, m)`. -/
def pairsBelow (m : ℕ) : List (ℕ × ℕ) :=
  (List.range m).flatMap fun i => (List.range' (i + 1) (m - (i + 1))).map fun j => (i, j)

/-- The panels in the order in which they are drawn, examples/pwvarx/kmeans_siso.py lines 128-216. -/
def panels (p s : ℕ) : List Panel :=
  (if p > 1 then (pairsBelow p).map (fun q => Panel.yy q.1 q.2) else []) ++
  (if s > 1 then (pairsBelow s).map (fun q => Panel.uu q.1 q.2) else []) ++
  (if p > 0 ∧ s > 0 then
    (List.range p).flatMap fun i => (List.range s).map fun j => Panel.yu i j else [])

/-- Drawing one panel after the other, with one column of panels: `ax[row_index, 0]`, then
`row_index += 1`. -/
def drawPanels (nRows : ℕ) : ℕ → List Panel → Py (List (ℕ × Panel))
  | _, [] => Py.ok []
  | row, q :: qs => if row < nRows then do
      let rest ← drawPanels nRows (row + 1) qs
      pure ((row, q) :: rest)
    else Py.raise .indexError

/-- `plot_cluster_assignments`, examples/pwvarx/kmeans_siso.py lines 82-219, as far as the layout is
concerned: which panel is drawn where.  matplotlib refuses a figure with no rows (ValueError). -/
def plotLayout (nSamples nLabels p s : ℕ) : Py (List (ℕ × Panel)) :=
  if (nLabels : ℤ) ≠ (nSamples : ℤ) - (max p s : ℕ) then Py.raise .valueError
  else
    let nPlots := (p + s) * (p + s - 1) / 2
    if nPlots = 0 then Py.raise .valueError else drawPanels nPlots 0 (panels p s)

/-- `np.squeeze` on shapes. -/
def squeezeShape (s : List ℕ) : List ℕ := s.filter fun d => d ≠ 1

/-- Shape of `a[index]` for an integer array `index`. -/
def takeShape (index a : List ℕ) : List ℕ := index ++ a.tail

/-- numpy's rule for assigning an array to (part of) another, on reversed shapes. -/
def fitsInto : List ℕ → List ℕ → Prop
  | [], _ => True
  | s :: ss, [] => s = 1 ∧ fitsInto ss []
  | s :: ss, d :: ds => (s = d ∨ s = 1) ∧ fitsInto ss ds

instance : (s d : List ℕ) → Decidable (fitsInto s d)
  | [], _ => isTrue trivial
  | s :: ss, [] => by
    unfold fitsInto
    exact @instDecidableAnd _ _ _ (instDecidableFitsInto ss [])
  | s :: ss, d :: ds => by
    unfold fitsInto
    exact @instDecidableAnd _ _ _ (instDecidableFitsInto ss ds)

/-- `fitted[i] = a[ordering]` for arrays of shape `shape` (`fitted[i]` has the same), where `ordering`
is `np.squeeze(np.argsort(a, axis=0))` if it is not known yet: the ordering to be used from then on. -/
def collectOne (ordering : Option (List ℕ)) (shape : List ℕ) : Py (Option (List ℕ)) :=
  let o := match ordering with
    | some o => o
    | none => squeezeShape shape
  if fitsInto (takeShape o shape).reverse shape.reverse then Py.ok (some o)
  else Py.raise .valueError

/-- Collecting the coefficients of a fit in `main`, examples/pwvarx/kmeans_siso.py lines 281-294, as
far as shapes are concerned (one endogenous and one exogenous variable). -/
def collectFit (k p s : ℕ) (includeTrend : Bool) : Py Unit := do
  let o ← if includeTrend then collectOne none [k, 1] else Py.ok none
  let o ← if p > 0 then collectOne o [k, p, 1, 1] else Py.ok o
  let _ ← if s > 0 then collectOne o [k, s, 1, 1] else Py.ok o
  pure ()

end Reor
